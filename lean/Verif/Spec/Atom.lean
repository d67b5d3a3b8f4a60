/-
A set of strings and what one does with it. Strings are lists of numbers.
-/
namespace Verif.Spec.Atom

/-- Calls to a set of atoms. `eraseNumber s`: erasing the number of the atom of `s`. -/
inductive Op where
  | insert (s : List Nat)
  | index (s : List Nat)
  | erase (s : List Nat)
  | eraseNumber (s : List Nat)
  | clear

/-- The stored strings behind a call; the empty string is never stored. -/
def step (S : List (List Nat)) : Op → List (List Nat)
  | .insert s | .index s => if s = [] ∨ s ∈ S then S else s :: S
  | .erase s | .eraseNumber s => S.filter fun t => t ≠ s
  | .clear => []

def run (ops : List Op) : List (List Nat) := ops.foldl step []

/-- The string of a call. -/
def Op.str : Op → List Nat
  | .insert s | .index s | .erase s | .eraseNumber s => s
  | .clear => []

/-- The string has characters of `w` bytes. -/
def Op.Ok (w : Nat) (op : Op) : Prop := ∀ c ∈ op.str, c < 256 ^ w

end Verif.Spec.Atom
