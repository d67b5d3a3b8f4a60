import Verif.Model.TreeIter
import Verif.Spec.Forest

/-!
# Programs that use the tree container

Not code of the repository: a history of calls, and the usual loop over siblings, on top of the model of
`/repo/include/wordring/tree/tree.hpp`.
-/
namespace Verif.Model.Tree
open Verif.Spec Verif.Spec.Forest
variable {α : Type}

/-- One call: `insert` 551-558, `erase` 694-718, `move` 672-685, `clear` 533-537 of tree.hpp; a call that throws changes
nothing. -/
def exec [Inhabited α] (t : T α) : Op α → Option (T α)
  | .insert p pos v => (Verif.Model.Tree.insert t ⟨p, pos⟩ v).map Prod.fst
  | .erase p x => (Verif.Model.Tree.erase t ⟨p, x⟩).map Prod.fst
  | .move p pos q x => (Verif.Model.Tree.move t ⟨p, pos⟩ ⟨q, x⟩).map fun r =>
      match r with
      | .ok y => y.1
      | .throws => t
  | .clear => some T.empty

def execAll [Inhabited α] (t : T α) (ops : List (Op α)) : Option (T α) := ops.foldlM exec t

/-- The loop `for (auto it = first; it != last; ++it) use(it, *it)`; `fuel` bounds the number of rounds. -/
def walk (t : T α) : Nat → It → It → Option (List (It × α))
  | fuel, it, last =>
    if it = last then some []
    else
      match fuel with
      | 0 => none
      | fuel + 1 => (it.deref t).bind fun v => (it.incr t).bind fun next => (walk t fuel next last).map ((it, v) :: ·)

/-- The loop `for (i = d->m_next; i != 0; i = (d + i)->m_next)` over the free nodes; `fuel` bounds the number of rounds. -/
def freeNodes (t : T α) : Nat → Nat → Option (List Nat)
  | fuel, i =>
    if i = 0 then some []
    else
      match fuel with
      | 0 => none
      | fuel + 1 => (t.rd t.next i).bind fun j => (freeNodes t fuel j).map (i :: ·)

end Verif.Model.Tree
