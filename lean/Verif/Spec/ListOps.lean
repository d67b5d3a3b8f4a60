/-
Independent specification of a sequence container of bounded length: the ordinary list operations, `none` where the
caller breaks the contract (position outside, capacity exceeded, removing from an empty sequence).
-/
namespace Verif.Spec.ListOps

inductive Op (α : Type)
  | pushBack (x : α)
  | popBack
  | insert (pos : Nat) (xs : List α)
  | erase (first last : Nat)
  | assign (xs : List α)
  | resize (n : Nat) (x : α)
  | clear

variable {α : Type}

def step (cap : Nat) (l : List α) : Op α → Option (List α)
  | .pushBack x => if l.length < cap then some (l ++ [x]) else none
  | .popBack => if l.isEmpty then none else some l.dropLast
  | .insert pos xs =>
    if pos ≤ l.length ∧ l.length + xs.length ≤ cap then some (l.take pos ++ xs ++ l.drop pos) else none
  | .erase first last =>
    if first < l.length ∧ first ≤ last ∧ last ≤ l.length then some (l.take first ++ l.drop last) else none
  | .assign xs => if xs.length ≤ cap then some xs else none
  | .resize n x => if n ≤ cap then some (l.take n ++ List.replicate (n - l.length) x) else none
  | .clear => some []


def run (cap : Nat) (l : List α) : List (Op α) → Option (List α)
  | [] => some l
  | op :: ops => (step cap l op).bind fun l' => run cap l' ops

end Verif.Spec.ListOps
