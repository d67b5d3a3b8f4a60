import Verif.Model.Tree

/-!
# Model of the traversing tree iterators

Source: `/repo/include/wordring/tree/tree_iterator.hpp`, over the iterators of the tree container.  The iterator is the
deque `m_c`, front first.  The deque never holds an end iterator.
-/
namespace Verif.Model.Tree
variable {α : Type}

/-- The iterators `first, ++first, …` before `last`, tree_iterator.hpp 41 and 85; `fuel` bounds the number of siblings. -/
def siblings (t : T α) : Nat → It → It → Option (List It)
  | fuel, first, last =>
    if first = last then some []
    else
      match fuel with
      | 0 => none
      | fuel + 1 => (first.incr t).bind fun next => (siblings t fuel next last).map (first :: ·)

/-- The children of `it`, tree_iterator.hpp 212. -/
def kidIts (t : T α) (it : It) : Option (List It) :=
  (it.begin t).bind fun first => it.fin.bind fun last => siblings t t.len first last

/-- `operator++` with the stack, tree_iterator.hpp 34, 38-42 and 208-214: children are put in front, in their order. -/
def stackNext (t : T α) : List It → Option (List It)
  | [] => none
  | it :: c => (kidIts t it).map fun k => k ++ c

/-- `operator++` with the queue, tree_iterator.hpp 79, 83-86 and 208-214: children are put behind, in their order. -/
def queueNext (t : T α) : List It → Option (List It)
  | [] => none
  | it :: c => (kidIts t it).map fun k => c ++ k

/-- `operator==`, tree_iterator.hpp 233-238: both at the end, or neither and at the same node. -/
def iterEq (a b : List It) : Bool :=
  match a, b with
  | [], [] => true
  | x :: _, y :: _ => decide (x = y)
  | _, _ => false

/-- The loop `for (auto it = first; it != end; ++it) visit(it.base())`, where `end` is default constructed. -/
def visit (next : List It → Option (List It)) : Nat → List It → Option (List It)
  | fuel, c =>
    if iterEq c [] = true then some []
    else
      match fuel, c with
      | 0, _ => none
      | _ + 1, [] => none
      | fuel + 1, it :: c => (next (it :: c)).bind fun c' => (visit next fuel c').map (it :: ·)

end Verif.Model.Tree
