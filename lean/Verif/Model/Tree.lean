/-!
# Model of the tree container

Source: `/repo/include/wordring/tree/tree.hpp`.  The node vector `m_c` is a length and one function per member; indexes
are unbounded.  Reading or writing behind the vector, a failed assertion and a dereferenced end are undefined (`none`).
-/
namespace Verif.Model.Tree

/-- `m_c`, tree.hpp 24-38 and 1058. -/
structure T (α : Type) where
  len : Nat
  parent : Nat → Nat
  prev : Nat → Nat
  next : Nat → Nat
  child : Nat → Nat
  val : Nat → α

variable {α : Type}

def upd {β : Type} (f : Nat → β) (i : Nat) (x : β) : Nat → β := fun j => if j = i then x else f j

def T.rd {β : Type} (t : T α) (f : Nat → β) (i : Nat) : Option β := if i < t.len then some (f i) else none

def T.setParent (t : T α) (i x : Nat) : Option (T α) := if i < t.len then some { t with parent := upd t.parent i x } else none
def T.setPrev (t : T α) (i x : Nat) : Option (T α) := if i < t.len then some { t with prev := upd t.prev i x } else none
def T.setNext (t : T α) (i x : Nat) : Option (T α) := if i < t.len then some { t with next := upd t.next i x } else none
def T.setChild (t : T α) (i x : Nat) : Option (T α) := if i < t.len then some { t with child := upd t.child i x } else none
def T.setVal (t : T α) (i : Nat) (x : α) : Option (T α) := if i < t.len then some { t with val := upd t.val i x } else none

/-- `tree()`, tree.hpp 362-365, and `clear()`, 533-537. -/
def T.empty [Inhabited α] : T α := ⟨1, fun _ => 0, fun _ => 0, fun _ => 0, fun _ => 0, fun _ => default⟩

/-- `m_c.emplace_back(node_type{0, 0, 0, 0, val})`, tree.hpp 737. -/
def T.push (t : T α) (v : α) : T α :=
  ⟨t.len + 1, upd t.parent t.len 0, upd t.prev t.len 0, upd t.next t.len 0, upd t.child t.len 0, upd t.val t.len v⟩

/-- `allocate`, tree.hpp 729-750. -/
def allocate (t : T α) (v : α) : Option (T α × Nat) :=
  (t.rd t.next 0).bind fun idx =>
  if idx = 0 then some (t.push v, t.len)
  else
    (t.rd t.prev idx).bind fun before =>
    (t.rd t.next idx).bind fun after =>
    (t.setVal idx v).bind fun t =>
    (t.setNext before after).bind fun t =>
    (t.setPrev after before).bind fun t => some (t, idx)

/-- Loop of `free`, tree.hpp 763-764; `fuel` bounds the number of free nodes. -/
def freeWalk (t : T α) (idx : Nat) : Nat → Nat → Nat → Option Nat
  | fuel, before, i =>
    if i ≠ 0 ∧ i < idx then
      match fuel with
      | 0 => none
      | fuel + 1 => (t.rd t.next i).bind fun j => freeWalk t idx fuel i j
    else some before

/-- `free`, tree.hpp 756-780. -/
def free (t : T α) (idx : Nat) : Option (T α) :=
  if idx < t.len then
    (t.rd t.next 0).bind fun i =>
    (freeWalk t idx t.len 0 i).bind fun before =>
    (t.rd t.next before).bind fun after =>
    (t.setNext before idx).bind fun t =>
    (t.setPrev idx before).bind fun t =>
    (t.setNext idx after).bind fun t =>
    (t.setPrev after idx).bind fun t =>
    (t.setParent idx 0).bind fun t => t.setChild idx 0
  else none

/-- The choice of `before` in `link`, tree.hpp 913-915. -/
def linkBefore (t : T α) (child pos : Nat) : Option Nat :=
  if pos ≠ 0 then (if child ≠ pos then t.rd t.prev pos else some 0)
  else (if child ≠ 0 then t.rd t.prev child else some 0)

/-- `link`, tree.hpp 907-940. -/
def link (t : T α) (parent pos idx : Nat) : Option (T α) :=
  (t.rd t.child parent).bind fun child =>
  (linkBefore t child pos).bind fun before =>
  (if before = 0 then
      (t.setChild parent idx).bind fun t =>
      (if pos ≠ 0 then t.rd t.prev pos else some idx).bind fun tail => t.setPrev idx tail
    else (t.setNext before idx).bind fun t => t.setPrev idx before).bind fun t =>
  (if pos = 0 then
      (t.setNext idx 0).bind fun t => if before ≠ 0 then t.setPrev child idx else some t
    else (t.setPrev pos idx).bind fun t => t.setNext idx pos).bind fun t =>
  t.setParent idx parent

/-- `unlink`, tree.hpp 1028-1055. -/
def unlink (t : T α) (idx : Nat) : Option (T α) :=
  if idx = 0 then none
  else
    (t.rd t.parent idx).bind fun parent =>
    (t.rd t.child parent).bind fun child =>
    (if child ≠ idx then t.rd t.prev idx else some 0).bind fun before =>
    (t.rd t.next idx).bind fun after =>
    (if before = 0 then
        (if after = 0 then t.setChild parent 0
         else (t.setChild parent after).bind fun t => (t.rd t.prev idx).bind fun q => t.setPrev after q)
      else t.setNext before after).bind fun t =>
    (if after = 0 then (if before ≠ 0 then t.setPrev child before else some t)
     else (t.rd t.prev idx).bind fun q => t.setPrev after q)

/-- `tree_node_iterator`, tree.hpp 233-235, without the container. -/
structure It where
  parent : Nat
  idx : Nat
deriving DecidableEq, Repr

/-- `begin()` and `end()` of the container, tree.hpp 436-466. -/
def begin0 (t : T α) : Option It := (t.rd t.child 0).map fun c => ⟨0, c⟩
def end0 : It := ⟨0, 0⟩

/-- `operator*`, tree.hpp 113-118. -/
def It.deref (t : T α) (it : It) : Option α := if it.idx = 0 then none else t.rd t.val it.idx

/-- `operator++`, tree.hpp 131-138. -/
def It.incr (t : T α) (it : It) : Option It :=
  if it.idx = 0 then none else (t.rd t.next it.idx).map fun n => ⟨it.parent, n⟩

/-- `operator--`, tree.hpp 154-175; `dbg` says whether assertions are compiled in. -/
def It.decr (dbg : Bool) (t : T α) (it : It) : Option It :=
  if it.idx ≠ 0 then
    (t.rd t.child it.parent).bind fun c =>
    if dbg = true ∧ ¬ (it.parent ≠ 0 ∧ c ≠ it.idx) then none
    else (t.rd t.prev it.idx).map fun n => ⟨it.parent, n⟩
  else if it.parent ≠ 0 then
    (t.rd t.child it.parent).bind fun c => (t.rd t.prev c).map fun n => ⟨it.parent, n⟩
  else
    (t.rd t.child 0).bind fun c => if dbg = true ∧ c = 0 then none else some ⟨it.parent, c⟩

/-- `begin()` and `end()` of an iterator, tree.hpp 188-200. -/
def It.begin (t : T α) (it : It) : Option It :=
  if it.idx = 0 then none else (t.rd t.child it.idx).map fun c => ⟨it.idx, c⟩
def It.fin (it : It) : Option It := if it.idx = 0 then none else some ⟨it.idx, 0⟩

/-- `parent()`, tree.hpp 222-230. -/
def It.up (t : T α) (it : It) : Option It :=
  (if it.parent = 0 then some 0 else t.rd t.parent it.parent).map fun pp => ⟨pp, it.parent⟩

/-- Loop `for (i = m_child; i != 0; i = m_next) push_back(i)`, tree.hpp 517 and 712; the top of the stack comes first;
`fuel` bounds the number of children. -/
def pushKids (t : T α) : Nat → Nat → List Nat → Option (List Nat)
  | fuel, i, v =>
    if i = 0 then some v
    else
      match fuel with
      | 0 => none
      | fuel + 1 => (t.rd t.next i).bind fun j => pushKids t fuel j (i :: v)

/-- Loop of `size(pos)`, tree.hpp 511-518; `fuel` bounds the number of nodes. -/
def sizeLoop (t : T α) : Nat → List Nat → Option Nat
  | _, [] => some 0
  | 0, _ :: _ => none
  | fuel + 1, p :: v =>
    (t.rd t.child p).bind fun c => (pushKids t t.len c v).bind fun v => (sizeLoop t fuel v).map (· + 1)

/-- `size(pos)`, tree.hpp 501-521; the counter has 32 bits, which the number of nodes fits. -/
def sizeAt (t : T α) (idx : Nat) : Option Nat := if idx = 0 then some 0 else sizeLoop t t.len [idx]

/-- Loop of `size()`, tree.hpp 486-490. -/
def rootsSize (t : T α) : Nat → Nat → Option Nat
  | fuel, i =>
    if i = 0 then some 0
    else
      match fuel with
      | 0 => none
      | fuel + 1 =>
        (sizeAt t i).bind fun n => (t.rd t.next i).bind fun j => (rootsSize t fuel j).map (n + ·)

/-- `size()`, tree.hpp 480-493. -/
def size (t : T α) : Option Nat := (t.rd t.child 0).bind fun c => rootsSize t t.len c

/-- `empty()`, tree.hpp 474. -/
def isEmpty (t : T α) : Option Bool := (size t).map fun n => decide (n = 0)

/-- `front()`, tree.hpp 414-424; `back()`, 426-428, is the same. -/
def front (t : T α) : Option α :=
  (isEmpty t).bind fun e => if e then none else (begin0 t).bind (It.deref t)
def back (t : T α) : Option α := front t

/-- `insert(pos, value)`, tree.hpp 551-558. -/
def insert (t : T α) (pos : It) (v : α) : Option (T α × It) :=
  (allocate t v).bind fun r =>
  (link r.1 pos.parent pos.idx r.2).map fun t => (t, ⟨pos.parent, r.2⟩)

/-- Loop of `erase(pos)`, tree.hpp 708-715; `fuel` bounds the number of nodes. -/
def eraseLoop : Nat → T α → List Nat → Option (T α)
  | _, t, [] => some t
  | 0, _, _ :: _ => none
  | fuel + 1, t, i :: v =>
    (t.rd t.child i).bind fun c =>
    (pushKids t t.len c v).bind fun v => (free t i).bind fun t => eraseLoop fuel t v

/-- `erase(pos)`, tree.hpp 694-718. -/
def erase (t : T α) (pos : It) : Option (T α × It) :=
  if pos.idx = 0 then none
  else
    (t.rd t.next pos.idx).bind fun after =>
    (unlink t pos.idx).bind fun t =>
    (eraseLoop t.len t [pos.idx]).map fun t => (t, ⟨pos.parent, after⟩)

/-- Outcome of an operation that may throw. -/
inductive Res (β : Type) where
  | ok (x : β)
  | throws

/-- Loop of `move(pos, sub)`, tree.hpp 676-679: does `sub` lie on the way from `i` to the root? -/
def isAncestor (t : T α) (sub : Nat) : Nat → Nat → Option Bool
  | fuel, i =>
    if i = 0 then some false
    else if i = sub then some true
    else
      match fuel with
      | 0 => none
      | fuel + 1 => (t.rd t.parent i).bind fun p => isAncestor t sub fuel p

/-- `move(pos, sub)`, tree.hpp 672-685. -/
def move (t : T α) (pos sub : It) : Option (Res (T α × It)) :=
  (isAncestor t sub.idx t.len pos.idx).bind fun b =>
  if b then some .throws
  else
    (unlink t sub.idx).bind fun t =>
    (link t pos.parent pos.idx sub.idx).map fun t => .ok (t, ⟨pos.parent, sub.idx⟩)

/-- Loop `while (it1 != it2) v.push_back((++it1).base())`, tree.hpp 623 and 639, over the reversed children. -/
def pushRev (t : T α) (first : It) : Nat → It → List It → Option (List It)
  | fuel, it, v =>
    if it = first then some v
    else
      match fuel with
      | 0 => none
      | fuel + 1 => (it.decr true t).bind fun it => pushRev t first fuel it (it :: v)

/-- Children of `it` in front of the stack `v`, tree.hpp 620-624 and 637-639. -/
def pushChildren (t : T α) (it : It) (v : List It) : Option (List It) :=
  (it.begin t).bind fun first => it.fin.bind fun last => pushRev t first t.len last v

/-- `if (it.parent() != x.back()[1]) x.pop_back()`, tree.hpp 632. -/
def popParent (t : T α) (it : It) (x : List (It × It)) : Option (List (It × It)) :=
  match x with
  | [] => none
  | e :: x => (it.up t).map fun p => if p ≠ e.2 then x else e :: x

/-- Loop of `insert(pos, sub)`, tree.hpp 627-643.  `s` is the tree that holds `sub`, `none` if it is the same one.
`fuel` bounds the number of copied nodes. -/
def copyLoop (s : Option (T α)) : Nat → List (It × It) → List It → T α → Option (T α)
  | _, _, [], t => some t
  | 0, _, _ :: _, _ => none
  | fuel + 1, x, it :: v, t =>
    (popParent (s.getD t) it x).bind fun x =>
    match x with
    | [] => none
    | e :: x =>
      e.1.fin.bind fun pos =>
      (it.deref (s.getD t)).bind fun value =>
      (insert t pos value).bind fun r =>
      (it.begin (s.getD r.1)).bind fun b =>
      if b.idx ≠ 0 then
        (pushChildren (s.getD r.1) it v).bind fun v => copyLoop s fuel ((r.2, it) :: e :: x) v r.1
      else copyLoop s fuel (e :: x) v r.1

/-- `insert(pos, sub)`, tree.hpp 612-646; `fuel` bounds the number of copied nodes. -/
def copy (s : Option (T α)) (fuel : Nat) (t : T α) (pos sub : It) : Option (T α × It) :=
  (sub.deref (s.getD t)).bind fun value =>
  (insert t pos value).bind fun r =>
  (pushChildren (s.getD r.1) sub []).bind fun v =>
  (copyLoop s fuel [(r.2, sub)] v r.1).map fun t => (t, r.2)

end Verif.Model.Tree
