/-
Model of include/wordring/whatwg/infra/unicode.hpp.
Code units and code points are `Nat`s. `none` = an `assert` fails (undefined behaviour in release builds).
-/
namespace Verif.Model.Unicode

/-- Character types distinguished by the overloads: `char`/`char8_t`, `char16_t`, `char32_t`. -/
inductive CharT | c8 | c16 | c32
deriving DecidableEq, Repr

/-- `to_code_point` for char / char8_t (unicode.hpp:39-80, 82-123; both overloads have the same body). -/
def toCodePoint8 (s : List Nat) : Option (Nat × List Nat) :=
  match s with
  | [] => none
  | ch1 :: s1 =>
    if ch1 &&& 0x80 = 0 then some (ch1, s1) else
    match s1 with
    | [] => none
    | ch2 :: s2 =>
      if ch2 &&& 0xC0 ≠ 0x80 then none else
      if ch1 &&& 0xE0 = 0xC0 then some (((ch1 &&& 0x1F) <<< 6) + (ch2 &&& 0x3F), s2) else
      match s2 with
      | [] => none
      | ch3 :: s3 =>
        if ch3 &&& 0xC0 ≠ 0x80 then none else
        if ch1 &&& 0xF0 = 0xE0 then
          some (((ch1 &&& 0xF) <<< 12) + ((ch2 &&& 0x3F) <<< 6) + (ch3 &&& 0x3F), s3) else
        match s3 with
        | [] => none
        | ch4 :: s4 =>
          if ch4 &&& 0xC0 ≠ 0x80 then none else
          if ch1 &&& 0xF8 = 0xF0 then
            some (((ch1 &&& 0x7) <<< 18) + ((ch2 &&& 0x3F) <<< 12) + ((ch3 &&& 0x3F) <<< 6) + (ch4 &&& 0x3F), s4)
          else none

/-- `to_code_point` for char16_t (unicode.hpp:125-142). -/
def toCodePoint16 (s : List Nat) : Option (Nat × List Nat) :=
  match s with
  | [] => none
  | ch1 :: s1 =>
    if ch1 &&& 0xFC00 ≠ 0xD800 then some (ch1, s1) else
    match s1 with
    | [] => none
    | ch2 :: s2 =>
      if ch2 &&& 0xFC00 ≠ 0xDC00 then none else
      some (0x10000 + (ch1 - 0xD800) * 0x400 + (ch2 - 0xDC00), s2)

/-- `to_code_point` for char32_t (unicode.hpp:144-151). -/
def toCodePoint32 (s : List Nat) : Option (Nat × List Nat) :=
  match s with
  | [] => none
  | c :: s => some (c, s)

/-- Overload set `to_code_point` (unicode.hpp:39-151). -/
def toCodePoint : CharT → List Nat → Option (Nat × List Nat)
  | .c8 => toCodePoint8
  | .c16 => toCodePoint16
  | .c32 => toCodePoint32

/-- `to_string` for char / char8_t output (unicode.hpp:174-203, 205-234): the units appended to the output.
`static_cast<unsigned char>` is `% 256`. -/
def toString8 (ch : Nat) : Option (List Nat) :=
  if ch &&& 0xFFFFFF80 = 0 then some [ch % 256]
  else if ch &&& 0xFFFFF800 = 0 then
    some [(0xC0 + (ch >>> 6)) % 256, (0x80 + (ch &&& 0x3F)) % 256]
  else if ch &&& 0xFFFF0000 = 0 then
    some [(0xE0 + (ch >>> 12)) % 256, (0x80 + ((ch &&& 0xFC0) >>> 6)) % 256, (0x80 + (ch &&& 0x3F)) % 256]
  else if ch &&& 0xFFE00000 = 0 then
    some [(0xF0 + (ch >>> 18)) % 256, (0x80 + ((ch &&& 0x3F000) >>> 12)) % 256,
          (0x80 + ((ch &&& 0xFC0) >>> 6)) % 256, (0x80 + (ch &&& 0x3F)) % 256]
  else none

/-- `to_string` for char16_t output (unicode.hpp:236-252). -/
def toString16 (ch : Nat) : Option (List Nat) :=
  if ch &&& 0xFFFF0000 = 0 then some [ch % 2 ^ 16]
  else if ch &&& 0xFFE00000 = 0 then
    some [((ch - 0x10000) / 0x400 + 0xD800) % 2 ^ 16, ((ch - 0x10000) % 0x400 + 0xDC00) % 2 ^ 16]
  else none

/-- `to_string` for char32_t output (unicode.hpp:254-261). -/
def toString32 (ch : Nat) : Option (List Nat) := some [ch]

/-- Overload set `to_string` (unicode.hpp:174-261). -/
def toString : CharT → Nat → Option (List Nat)
  | .c8 => toString8
  | .c16 => toString16
  | .c32 => toString32

theorem toCodePoint_length {ct : CharT} {s : List Nat} {c : Nat} {r : List Nat}
    (h : toCodePoint ct s = some (c, r)) : r.length < s.length := by
  cases ct
  · simp only [toCodePoint, toCodePoint8] at h
    repeat' split at h
    all_goals simp_all
    all_goals (obtain ⟨_, rfl⟩ := h; omega)
  · simp only [toCodePoint, toCodePoint16] at h
    repeat' split at h
    all_goals simp_all
    all_goals (obtain ⟨_, rfl⟩ := h; omega)
  · simp only [toCodePoint, toCodePoint32] at h
    repeat' split at h
    all_goals simp_all

/-- The loop `while (first != last) { first = to_code_point(first, last, cp); body(cp); }` shared by
encoding_cast (unicode.hpp:271-279) and the string functions of infra.hpp. `none` = undefined behaviour. -/
def loopCP {σ : Type} (ct : CharT) (body : σ → Nat → Option σ) (st : σ) (s : List Nat) : Option σ :=
  if s.isEmpty then some st else
  match _h : toCodePoint ct s with
  | none => none
  | some (c, r) =>
    match body st c with
    | none => none
    | some st' => loopCP ct body st' r
termination_by s.length
decreasing_by exact toCodePoint_length _h

/-- `to_string(cp, out)` appending to the output accumulated so far. -/
def emit (ct : CharT) (out : List Nat) (c : Nat) : Option (List Nat) := (toString ct c).map (out ++ ·)

/-- `encoding_cast` (unicode.hpp:267-280 and the wrappers 284-312); for 32-bit input the code unit is taken
directly (275), which is what `to_code_point` does as well; same-type cast is the identity (316-320). -/
def encodingCast (src dst : CharT) (s : List Nat) : Option (List Nat) :=
  if src = dst then some s else loopCP src (emit dst) [] s

end Verif.Model.Unicode
