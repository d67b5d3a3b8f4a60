/-
Percent encoding as in the URL standard, and numerals.
-/
namespace Verif.Spec.Percent

/-- The code points of a literal. -/
def codes (s : String) : List Nat := s.toList.map Char.toNat

/-- The decimal numeral of a number. -/
def decimal (n : Nat) : List Nat := codes (toString n)

/-- `%XX`, upper case. -/
def escape (b : Nat) : List Nat := 0x25 :: [b / 16, b % 16].map fun d => if d < 10 then 0x30 + d else 0x41 + (d - 10)

/-- The percent-encode sets. -/
inductive PSet
  | c0 | fragment | query | specialQuery | path | userinfo | component | form
deriving DecidableEq, Repr

/-- The printable ASCII code points of each set. -/
def printable : PSet → String
  | .c0 => ""
  | .fragment => " \"<>`"
  | .query => " \"#<>"
  | .specialQuery => " \"#<>'"
  | .path => " \"#<>?`{}"
  | .userinfo => " \"#/:;<=>?@[\\]^`{|}"
  | .component => " \"#$%&+,/:;<=>?@[\\]^`{|}"
  | .form => " !\"#$%&'()+,/:;<=>?@[\\]^`{|}~"

/-- Membership: the listed ones, the C0 controls and everything above `~`. -/
def InSet (p : PSet) (c : Nat) : Prop := c ≤ 0x1F ∨ 0x7E < c ∨ c ∈ codes (printable p)

instance (p : PSet) (c : Nat) : Decidable (InSet p c) := by unfold InSet; infer_instance

/-- Percent encoding of one byte. -/
def unit (p : PSet) (plus : Bool) (b : Nat) : List Nat :=
  if plus = true ∧ b = 0x20 then [0x2B] else if InSet p b then escape b else [b]

/-- `&#N;`, escaped. -/
def reference (cp : Nat) : List Nat := codes "%26%23" ++ decimal cp ++ codes "%3B"

/-- A hexadecimal digit and its value. -/
def HexDigit (c v : Nat) : Prop :=
  (0x30 ≤ c ∧ c ≤ 0x39 ∧ v = c - 0x30) ∨ (0x41 ≤ c ∧ c ≤ 0x46 ∧ v = c - 0x41 + 10) ∨ (0x61 ≤ c ∧ c ≤ 0x66 ∧ v = c - 0x61 + 10)

/-- Percent decoding. -/
inductive Decodes : List Nat → List Nat → Prop
  | nil : Decodes [] []
  | escape {a b u v : Nat} {s t : List Nat} : HexDigit a u → HexDigit b v → Decodes s t →
      Decodes (0x25 :: a :: b :: s) ((u * 16 + v) :: t)
  | keep {c : Nat} {s t : List Nat} : (¬ ∃ a b u v r, c = 0x25 ∧ s = a :: b :: r ∧ HexDigit a u ∧ HexDigit b v) →
      Decodes s t → Decodes (c :: s) (c :: t)

end Verif.Spec.Percent
