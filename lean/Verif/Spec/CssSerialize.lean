import Verif.Spec.CssTok
/-
"Serialize an identifier" and "serialize a string" of CSSOM, section 2.1.
-/
namespace Verif.Spec.CssTok
open Verif.Spec Verif.Spec.Infra Verif.Spec.Percent Verif.Spec.Host

instance (c : Nat) : Decidable (Digit c) := by unfold Digit; infer_instance
instance (c : Nat) : Decidable (IdentCp c) := by unfold IdentCp IdentStart Letter Digit; infer_instance

/-- A lower case hexadecimal digit. -/
def hexLower (d : Nat) : Nat := if d < 10 then 0x30 + d else 0x57 + d

/-- A number below 256 in hexadecimal digits. -/
def hexText (n : Nat) : List Nat := if n < 16 then [hexLower n] else [hexLower (n / 16), hexLower (n % 16)]

/-- "Escape a character as code point". -/
def asCodePoint (c : Nat) : List Nat := 0x5C :: (hexText c ++ [0x20])

/-- Controls other than NUL. -/
def Control (c : Nat) : Prop := (1 ≤ c ∧ c ≤ 0x1F) ∨ c = 0x7F
instance (c : Nat) : Decidable (Control c) := by unfold Control; infer_instance

/-- A code point of an identifier. -/
def identChar (c : Nat) : List Nat :=
  if c = 0 then [0xFFFD] else if Control c then asCodePoint c else if IdentCp c then [c] else [0x5C, c]

/-- "Serialize an identifier". -/
def serializeIdent : List Nat → List Nat
  | [] => []
  | c :: v =>
    if Digit c then asCodePoint c ++ v.flatMap identChar
    else if c = 0x2D then
      match v with
      | [] => [0x5C, 0x2D]
      | d :: v => if Digit d then 0x2D :: (asCodePoint d ++ v.flatMap identChar) else 0x2D :: (d :: v).flatMap identChar
    else (c :: v).flatMap identChar

/-- A code point of a string. -/
def stringChar (c : Nat) : List Nat :=
  if c = 0 then [0xFFFD] else if Control c then asCodePoint c else if c = 0x22 ∨ c = 0x5C then [0x5C, c] else [c]

/-- "Serialize a string". -/
def serializeString (v : List Nat) : List Nat := 0x22 :: (v.flatMap stringChar ++ [0x22])

/-- NUL is replaced. -/
def withoutNul (v : List Nat) : List Nat := v.map fun c => if c = 0 then 0xFFFD else c

end Verif.Spec.CssTok
