/-
Independent specification of big-endian byte strings.
-/
namespace Verif.Spec

/-- Value of a big-endian byte string. -/
def beValue : List Nat → Nat
  | [] => 0
  | b :: s => b * 256 ^ s.length + beValue s

/-- All elements are bytes. -/
def IsBytes (s : List Nat) : Prop := ∀ b ∈ s, b < 256

/-- `bs` is the `w`-byte big-endian representation of `n`. -/
def IsBigEndian (w n : Nat) (bs : List Nat) : Prop :=
  bs.length = w ∧ IsBytes bs ∧ beValue bs = n

/-- Lexicographic order of byte strings. -/
def lexLt : List Nat → List Nat → Prop
  | [], [] => False
  | [], _ :: _ => True
  | _ :: _, [] => False
  | a :: s, b :: t => a < b ∨ (a = b ∧ lexLt s t)

end Verif.Spec
