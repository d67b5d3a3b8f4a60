import Verif.Model.TagTree
import Verif.Spec.Tags

/-!
# Programs that use the tag tree

Not code of the repository: a history of calls and the usual loops, on top of the model of
`/repo/include/wordring/tag_tree/`.
-/
namespace Verif.Model.TagTree
open Verif.Spec Verif.Spec.Forest
variable {α : Type}

/-- The iterator to the child `pos` of `p`, or (0) `p.end()`, or (0, 0) `end()` of the tree, tag_tree_iterator.hpp 139-143
and tag_tree.hpp 113. -/
def spot (t : T α) (p pos : Nat) : Option Nat := if pos ≠ 0 then some pos else if p ≠ 0 then endOf t p else some 0

/-- One call: `insert` 153-169, `erase` 200-217, `move` 176-198, `clear` 145-149 of tag_tree.hpp. -/
def exec [Inhabited α] (single : α → Bool) (t : T α) : Op α → Option (T α)
  | .insert p pos v => (spot t p pos).bind fun i => (Verif.Model.TagTree.insert single t i v).map Prod.fst
  | .erase _ x => (Verif.Model.TagTree.erase t x).map Prod.fst
  | .move p pos _ x => (spot t p pos).bind fun i => (Verif.Model.TagTree.move t i x).map Prod.fst
  | .clear => some T.empty

def execAll [Inhabited α] (single : α → Bool) (t : T α) (ops : List (Op α)) : Option (T α) := ops.foldlM (exec single) t

/-- What a serial iterator shows of a tag, serial_iterator.hpp 64-67 and 118-148. -/
structure Seen (α : Type) where
  name : Nat
  value : α
  isStart : Bool
  isEnd : Bool
  startTag : Nat
  endTag : Nat
deriving Repr, DecidableEq

/-- What a serial iterator must show at a tag. -/
def view [Inhabited α] : Tags.Tag α → Seen α
  | .single i v => ⟨i, v, false, false, 0, 0⟩
  | .start i v e => ⟨i, v, true, false, i, e⟩
  | .stop e i => ⟨e, default, false, true, i, e⟩

def see (t : T α) (i : Nat) : Option (Seen α) :=
  (t.rd t.val i).bind fun v => (isStart t i).bind fun s => (isEnd t i).bind fun e => (startTag t i).bind fun h =>
  (endTag t i).map fun x => ⟨i, v, s, e, h, x⟩

/-- The loop `for (auto it = i; it != t.send(); ++it) use(it)`; `fuel` bounds the number of rounds. -/
def swalk (t : T α) : Nat → Nat → Option (List (Seen α))
  | fuel, i =>
    if i = 0 then some []
    else
      match fuel with
      | 0 => none
      | fuel + 1 => (see t i).bind fun x => (sincr t i).bind fun j => (swalk t fuel j).map (x :: ·)

/-- The loop `for (auto it = --i; it != t.send(); --it) use(it)`; before the first tag is `send()`. -/
def sback (t : T α) : Nat → Nat → Option (List (Seen α))
  | fuel, i =>
    (sdecr t i).bind fun j =>
    if j = 0 then some []
    else
      match fuel with
      | 0 => none
      | fuel + 1 => (see t j).bind fun x => (sback t fuel j).map (x :: ·)

/-- The loop `for (auto it = i; it != last; ++it) use(it, *it)` over siblings. -/
def walk (t : T α) : Nat → Nat → Nat → Option (List (Nat × α))
  | fuel, i, last =>
    if i = last then some []
    else
      match fuel with
      | 0 => none
      | fuel + 1 => (deref t i).bind fun v => (incr t i).bind fun j => (walk t fuel j last).map ((i, v) :: ·)

section
variable {β : Type} (text : α → Option (List β)) (zero : β)

/-- The loop `for (auto it = c; it != it.end(); ++it) use(*it)` with a character iterator. -/
def cwalk (t : T α) : Nat → CIt → Option (List β)
  | fuel, c =>
    if c = (0, 0) then some []
    else
      match fuel with
      | 0 => none
      | fuel + 1 => (cderef text zero t c).bind fun x => (cincr text t c).bind fun d => (cwalk t fuel d).map (x :: ·)

/-- The loop `for (auto it = --c; it != it.end(); --it) use(*it)` with a character iterator. -/
def cbackWalk (t : T α) : Nat → CIt → Option (List β)
  | fuel, c =>
    (cdecr text t c).bind fun d =>
    if d = (0, 0) then some []
    else
      match fuel with
      | 0 => none
      | fuel + 1 => (cderef text zero t d).bind fun x => (cbackWalk t fuel d).map (x :: ·)
end
end Verif.Model.TagTree
