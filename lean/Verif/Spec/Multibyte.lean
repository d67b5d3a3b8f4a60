import Verif.Spec.Decode
/-
Independent specification of the multi-byte legacy encodings (Encoding Standard, "Legacy multi-byte Chinese (traditional),
Japanese and Korean encodings"), as a reading of byte sequences from left to right that knows no decoder states. The indexes
of the standard are parameters.
-/
namespace Verif.Spec.Multibyte

/-- How the characters of an encoding are written: alone, in two bytes, or in three. -/
structure Scheme where
  /-- The character one byte stands for. -/
  single : Nat → Option Nat
  /-- The byte starts a longer sequence. -/
  lead : Nat → Bool
  /-- The two bytes start a sequence of three. -/
  long : Nat → Nat → Bool
  pair : Nat → Nat → Option (List Nat)
  triple : Nat → Nat → Nat → Option (List Nat)

/-- What a byte sequence says: code points, and one `none` for each error. A sequence that is no character is one error and
takes all its bytes but the last, and the last as well unless it is ASCII; a sequence cut off by the end is one error. -/
def reads (S : Scheme) : List Nat → List (Option Nat)
  | [] => []
  | [a] => match S.single a with
    | some c => [some c]
    | none => [none]
  | a :: t :: b => match S.single a with
    | some c => some c :: reads S (t :: b)
    | none =>
      if S.lead a then
        if S.long a t then
          match b with
          | [] => [none]
          | u :: b' => match S.triple a t u with
            | some l => l.map some ++ reads S b'
            | none => none :: (if u ≤ 0x7F then reads S (u :: b') else reads S b')
        else match S.pair a t with
          | some l => l.map some ++ reads S b
          | none => none :: (if t ≤ 0x7F then reads S (t :: b) else reads S b)
      else none :: reads S (t :: b)
termination_by b => b.length

def within (lo hi b : Nat) : Bool := decide (lo ≤ b ∧ b ≤ hi)

/-- The cell of a table `width` cells wide. -/
def cell (width : Nat) (row column : Option Nat) : Option Nat := do
  let r ← row
  let c ← column
  pure (r * width + c)

/-- Position of a byte in a range. -/
def place (lo hi b : Nat) : Option Nat := if within lo hi b then some (b - lo) else none

/-- Position of a byte in two ranges, one behind the other. -/
def place2 (lo hi lo2 hi2 b : Nat) : Option Nat :=
  if within lo hi b then some (b - lo) else if within lo2 hi2 b then some (hi + 1 - lo + (b - lo2)) else none

/-- Shift_JIS: leads 81-9F and E0-FC make 60 rows, trails 40-7E and 80-FC 188 columns; the ten rows F0-F9 are the private use
area from U+E000, all others are index jis0208. Half-width katakana and U+0080 are single bytes. -/
def shiftJis (jis0208 : Nat → Option Nat) : Scheme where
  single a := if a ≤ 0x80 then some a else if within 0xA1 0xDF a then some (0xFF61 + (a - 0xA1)) else none
  lead a := within 0x81 0x9F a || within 0xE0 0xFC a
  long _ _ := false
  pair a t := do
    let p ← cell 188 (place2 0x81 0x9F 0xE0 0xFC a) (place2 0x40 0x7E 0x80 0xFC t)
    if within 0xF0 0xF9 a then pure [0xE000 + (p - 47 * 188)] else pure [← jis0208 p]
  triple _ _ _ := none

/-- EUC-KR: leads 81-FE, trails 41-FE. -/
def eucKr (index : Nat → Option Nat) : Scheme where
  single a := if a ≤ 0x7F then some a else none
  lead a := within 0x81 0xFE a
  long _ _ := false
  pair a t := do
    let p ← cell 190 (place 0x81 0xFE a) (place 0x41 0xFE t)
    pure [← index p]
  triple _ _ _ := none

/-- EUC-JP: two bytes A1-FE are index jis0208, 8E A1-DF half-width katakana, 8F and two bytes A1-FE index jis0212. -/
def eucJp (jis0208 jis0212 : Nat → Option Nat) : Scheme where
  single a := if a ≤ 0x7F then some a else none
  lead a := a == 0x8E || a == 0x8F || within 0xA1 0xFE a
  long a t := a == 0x8F && within 0xA1 0xFE t
  pair a t :=
    if a = 0x8E then (place 0xA1 0xDF t).map fun n => [0xFF61 + n]
    else do
      let p ← cell 94 (place 0xA1 0xFE a) (place 0xA1 0xFE t)
      pure [← jis0208 p]
  triple _ t u := do
    let p ← cell 94 (place 0xA1 0xFE t) (place 0xA1 0xFE u)
    pure [← jis0212 p]

/-- Big5: leads 81-FE, trails 40-7E and A1-FE; four cells are two code points each. -/
def big5 (index : Nat → Option Nat) : Scheme where
  single a := if a ≤ 0x7F then some a else none
  lead a := within 0x81 0xFE a
  long _ _ := false
  pair a t :=
    if a = 0x88 ∧ t = 0x62 then some [0xCA, 0x304]
    else if a = 0x88 ∧ t = 0x64 then some [0xCA, 0x30C]
    else if a = 0x88 ∧ t = 0xA3 then some [0xEA, 0x304]
    else if a = 0x88 ∧ t = 0xA5 then some [0xEA, 0x30C]
    else do
      let p ← cell 157 (place 0x81 0xFE a) (place2 0x40 0x7E 0xA1 0xFE t)
      pure [← index p]
  triple _ _ _ := none

end Verif.Spec.Multibyte
