/-!
# Model of `wordring::detail::trie_heap`

Source: `/repo/include/wordring/trie/trie_heap.hpp`.

The node vector `m_c` is a length and two total functions (`m_base`, `m_check`).
Every access to the vector goes through a bounds check; a check that fails, a
failed `assert` and an endless walk along the list of unused nodes all give
`none` (undefined behaviour).  Indices are natural numbers, `m_base`/`m_check`
are unbounded integers (32 bit overflow of the index type is not modelled).
-/
namespace Verif.Model.Trie

/-- `null_value`, trie_heap.hpp 181 (label of the empty transition). -/
def nullValue : Nat := 256

/-- Node vector `m_c` (trie_heap.hpp 825, trie_node.hpp): `len = m_c.size()`. -/
structure Heap where
  len : Nat
  base : Nat → Int
  check : Nat → Int

/-- Functional update of one array cell. -/
def upd (f : Nat → Int) (i : Nat) (v : Int) : Nat → Int :=
  fun j => if j = i then v else f j

/-- `trie_heap()` and `clear()`, trie_heap.hpp 364-368, 373-376: two nodes `{0, 0}`. -/
def Heap.empty : Heap := ⟨2, fun _ => 0, fun _ => 0⟩

/-- Read of `(d + i)->m_base`. -/
def rdB (h : Heap) (i : Nat) : Option Int := if i < h.len then some (h.base i) else none
/-- Read of `(d + i)->m_check`. -/
def rdC (h : Heap) (i : Nat) : Option Int := if i < h.len then some (h.check i) else none
/-- Write of `(d + i)->m_base`. -/
def wrB (h : Heap) (i : Nat) (v : Int) : Option Heap :=
  if i < h.len then some { h with base := upd h.base i v } else none
/-- Write of `(d + i)->m_check`. -/
def wrC (h : Heap) (i : Nat) (v : Int) : Option Heap :=
  if i < h.len then some { h with check := upd h.check i v } else none

/-- `-(d + i)->m_check` as the next index of the list of unused nodes.  A positive
check would give a negative index; no caller can use one, so it is `none`. -/
def nxt (h : Heap) (i : Nat) : Option Nat :=
  (rdC h i).bind fun c => if c ≤ 0 then some (-c).toNat else none

/-- First loop of `reserve`, trie_heap.hpp 405-409: find the last unused node. -/
def reserveWalk : Nat → Heap → Nat → Option Nat
  | 0, _, _ => none
  | n + 1, h, before =>
    (nxt h before).bind fun i =>
      if i = 0 then some before
      else if i < h.len then reserveWalk n h i else none

/-- Second loop of `reserve`, trie_heap.hpp 411-415: link `cnt` nodes from `id` on. -/
def reserveLink : Nat → Nat → Nat → Heap → Option Heap
  | 0, _, _, h => some h
  | n + 1, id, before, h =>
    (wrC h before (-(id : Int))).bind fun h => reserveLink n (id + 1) id h

/-- `m_c.insert(m_c.end(), n, { 0, 0 })`, trie_heap.hpp 402. -/
def extend (h : Heap) (n : Nat) : Heap where
  len := h.len + n
  base := fun i => if h.len ≤ i then 0 else h.base i
  check := fun i => if h.len ≤ i then 0 else h.check i

/-- `reserve(n, before)`, trie_heap.hpp 397-417. -/
def reserve (h : Heap) (n : Nat) (before : Nat := 0) : Option Heap :=
  if before < h.len then
    (reserveWalk ((extend h n).len + 1) (extend h n) before).bind fun b =>
      reserveLink n h.len b (extend h n)
  else none

/-- Inner loop of `allocate`, trie_heap.hpp 456-460:
`for (i = before; i != idx; i = -(d + before)->m_check) before = i;` -/
def allocWalk : Nat → Heap → Nat → Nat → Nat → Option Nat
  | 0, _, _, _, _ => none
  | n + 1, h, i, before, idx =>
    if i = idx then some before
    else if i < h.len then (nxt h i).bind fun i' => allocWalk n h i' i idx
    else none

/-- Outer loop of `allocate`, trie_heap.hpp 450-465. -/
def allocLoop (base : Nat) : List Nat → Nat → Heap → Option Heap
  | [], _, h => some h
  | l :: ls, before, h =>
    (rdC h (base + l)).bind fun c =>
      if 1 ≤ c then allocLoop base ls before h
      else
        (allocWalk (h.len + 1) h before before (base + l)).bind fun b =>
        (rdC h (base + l)).bind fun c' =>
        (wrC h b c').bind fun h =>
        (wrC h (base + l) 0).bind fun h =>
        allocLoop base ls b h

/-- `std::is_sorted`. -/
def isSorted : List Nat → Bool
  | [] => true
  | [_] => true
  | a :: b :: r => decide (a ≤ b) && isSorted (b :: r)

/-- `allocate(base, labels, before)`, trie_heap.hpp 441-466. -/
def allocate (h : Heap) (base : Nat) (labels : List Nat) (before : Nat := 0) : Option Heap :=
  match labels.getLast? with
  | none => none
  | some back =>
    if 1 ≤ base ∧ isSorted labels = true ∧ before < h.len then
      (if h.len ≤ base + back then reserve h (base + back + 1 - h.len) else some h).bind fun h =>
        allocLoop base labels before h
    else none

/-- `is_free(base, labels)`, trie_heap.hpp 606-623. -/
def isFree (h : Heap) (base : Nat) : List Nat → Bool
  | [] => true
  | l :: ls =>
    if l = 0 ∧ base = 1 then false
    else if h.len ≤ base + l then true
    else if 1 ≤ h.check (base + l) then false
    else isFree h base ls

/-- `is_free(parent, base, labels)`, trie_heap.hpp 627-646. -/
def isFreeP (h : Heap) (parent base : Nat) : List Nat → Bool
  | [] => true
  | l :: ls =>
    if l = 0 ∧ base = 1 then false
    else if h.len ≤ base + l then true
    else if 1 ≤ h.check (base + l) ∧ (parent : Int) ≠ h.check (base + l) then false
    else isFreeP h parent base ls

/-- First loop of `locate`, trie_heap.hpp 586: returns `(idx, before)`. -/
def locateSkip (offset : Nat) : Nat → Heap → Nat → Nat → Option (Nat × Nat)
  | 0, _, _, _ => none
  | n + 1, h, idx, before =>
    if 0 < idx ∧ idx ≤ offset then
      (nxt h idx).bind fun i => locateSkip offset n h i idx
    else some (idx, before)

/-- Second loop of `locate`, trie_heap.hpp 591: returns `(idx, before)`. -/
def locateScan (offset : Nat) (labels : List Nat) : Nat → Heap → Nat → Nat → Option (Nat × Nat)
  | 0, _, _, _ => none
  | n + 1, h, idx, before =>
    if idx ≠ 0 ∧ isFree h (idx - offset) labels = false then
      (nxt h idx).bind fun i => locateScan offset labels n h i idx
    else some (idx, before)

/-- `locate(labels, before)`, trie_heap.hpp 572-602: returns `(base, before)`. -/
def locate (h : Heap) (labels : List Nat) : Option (Nat × Nat) :=
  match labels with
  | [] => none
  | offset :: _ =>
    if isSorted labels = true then
      (nxt h 0).bind fun i0 =>
      (locateSkip offset (h.len + 1) h i0 0).bind fun r1 =>
      (if offset < r1.1 then locateScan offset labels (h.len + 1) h r1.1 r1.2
        else some (0, r1.2)).bind fun r2 =>
      let base := if r2.1 ≠ 0 then r2.1 - offset else max (h.len - offset) 1
      if r2.2 < base + offset then some (base, r2.2) else none
    else none

/-- `free(idx, before)`, loop at trie_heap.hpp 533-537. -/
def freeWalk : Nat → Heap → Nat → Nat → Option Nat
  | 0, _, _, _ => none
  | n + 1, h, before, idx =>
    (nxt h before).bind fun i =>
      if i ≠ 0 ∧ i < idx then
        (if i < h.len then freeWalk n h i idx else none)
      else some before

/-- `free(idx, before)`, trie_heap.hpp 526-544: returns the new state and `before`. -/
def freeOne (h : Heap) (idx : Nat) (before : Nat := 0) : Option (Heap × Nat) :=
  if 1 < idx ∧ idx < h.len ∧ before < h.len then
    (freeWalk (h.len + 1) h before idx).bind fun b =>
    (wrB h idx 0).bind fun h =>
    (rdC h b).bind fun c =>
    (wrC h idx c).bind fun h =>
    (wrC h b (-(idx : Int))).bind fun h =>
    some (h, b)
  else none

/-- Loop of `free(base, labels, before)`, trie_heap.hpp 558-562. -/
def freeLoop (base : Nat) : List Nat → Nat → Heap → Option Heap
  | [], _, h => some h
  | l :: ls, before, h =>
    (freeOne h (base + l) before).bind fun r => freeLoop base ls r.2 r.1

/-- `free(base, labels, before)`, trie_heap.hpp 548-563. -/
def freeAll (h : Heap) (base : Nat) (labels : List Nat) (before : Nat := 0) : Option Heap :=
  match labels.getLast? with
  | none => none
  | some back =>
    if 1 ≤ base ∧ base < h.len ∧ base + back < h.len ∧ isSorted labels = true ∧ before < h.len then
      freeLoop base labels before h
    else none

/-- Labels `i - from` of the nodes `i` in `[from, from + n)` with check `parent`;
the first loop of `relocate`, trie_heap.hpp 477-483. -/
def childLabels (h : Heap) (parent from_ : Nat) (n : Nat) : List Nat :=
  (List.range n).filter fun l => h.check (from_ + l) = (parent : Int)

/-- `std::set_union` on sorted label lists. -/
def setUnion : List Nat → List Nat → List Nat
  | [], ys => ys
  | x :: xs, [] => x :: xs
  | x :: xs, y :: ys =>
    if x < y then x :: setUnion xs (y :: ys)
    else if y < x then y :: setUnion (x :: xs) ys
    else x :: setUnion xs ys
termination_by xs ys => xs.length + ys.length

/-- Grandchild loop of `relocate`, trie_heap.hpp 507-511: for the `n` nodes from `i` on,
replace check `old` by `new`. -/
def fixChecks (old new : Nat) : Nat → Nat → Heap → Option Heap
  | 0, _, h => some h
  | n + 1, i, h =>
    (rdC h i).bind fun c =>
      if c = (old : Int) then (wrC h i (new : Int)).bind fun h => fixChecks old new n (i + 1) h
      else fixChecks old new n (i + 1) h

/-- Number of nodes in the window `[base, min(base + 256, limit() - 1)]`. -/
def window (h : Heap) (base : Nat) : Nat := min (base + nullValue) (h.len - 1) + 1 - base

/-- Child loop of `relocate`, trie_heap.hpp 493-513. -/
def moveLoop (from_ to : Nat) : List Nat → Heap → Option Heap
  | [], h => some h
  | l :: ls, h =>
    (rdB h (from_ + l)).bind fun b =>
    (wrB h (to + l) b).bind fun h =>
    (rdC h (from_ + l)).bind fun c =>
    (wrC h (to + l) c).bind fun h =>
    (rdB h (from_ + l)).bind fun b =>
    (if 1 ≤ b then fixChecks (from_ + l) (to + l) (window h b.toNat) b.toNat h
      else some h).bind fun h =>
    moveLoop from_ to ls h

/-- `relocate(parent, from, labels)`, trie_heap.hpp 470-520.  `label_vector` holds at most
257 labels, the union must fit. -/
def relocate (h : Heap) (parent from_ : Nat) (labels : List Nat) : Option (Heap × Nat) :=
  if 1 ≤ parent ∧ parent < h.len ∧ 1 ≤ from_ ∧ from_ < h.len then
    let children := childLabels h parent from_ (window h from_)
    let all := setUnion labels children
    if all.length ≤ 257 then
      (locate h all).bind fun r =>
      (allocate h r.1 all r.2).bind fun h =>
      (moveLoop from_ r.1 children h).bind fun h =>
      (wrB h parent (r.1 : Int)).bind fun h =>
      (freeAll h from_ children).bind fun h =>
      some (h, r.1)
    else none
  else none

/-- Last loop of `add`, trie_heap.hpp 818. -/
def setChecks (parent base : Nat) : List Nat → Heap → Option Heap
  | [], h => some h
  | l :: ls, h => (wrC h (base + l) (parent : Int)).bind fun h => setChecks parent base ls h

/-- `add(parent, labels)`, trie_heap.hpp 796-823: returns the new state and the base. -/
def add (h : Heap) (parent : Nat) (labels : List Nat) : Option (Heap × Nat) :=
  match labels.getLast? with
  | none => none
  | some back =>
    if isSorted labels = true then
      (rdB h parent).bind fun b =>
      if b < h.len then
        (if b ≤ 0 then
            (locate h labels).bind fun r =>
              (allocate h r.1 labels r.2).bind fun h => some (h, r.1)
          else if isFreeP h parent b.toNat labels = true then
            (allocate h b.toNat labels 0).bind fun h => some (h, b.toNat)
          else relocate h parent b.toNat labels).bind fun r =>
        if r.2 + back < r.1.len then
          (wrB r.1 parent (r.2 : Int)).bind fun h =>
          (setChecks parent r.2 labels h).bind fun h =>
          if 1 ≤ r.2 ∧ r.2 < h.len then some (h, r.2) else none
        else none
      else none
    else none

/-- `at(parent, label)`, trie_heap.hpp 766-785: 0 when there is no transition. -/
def at_ (h : Heap) (parent label : Nat) : Option Nat :=
  if 1 ≤ parent ∧ parent < h.len ∧ label ≤ nullValue then
    let b := h.base parent
    if 1 ≤ b then
      let idx := b.toNat + label
      let c := if idx < h.len then h.check idx else 0
      if c ≠ (parent : Int) then some 0 else some idx
    else some 0
  else none

/-- `is_tail(idx)`, trie_heap.hpp 651-660. -/
def isTail (h : Heap) (idx : Nat) : Option Bool :=
  if 1 ≤ idx ∧ idx < h.len then
    let b := h.base idx
    some (decide ((b ≤ 0 ∧ idx ≠ 1) ∨
      (1 ≤ b ∧ b.toNat + nullValue < h.len ∧ h.check (b.toNat + nullValue) = (idx : Int))))
  else none

/-- Scan of `n` nodes from `i` on for check `parent` at an index other than `skip`,
with the assertion `m_check < limit()`; loops of `has_child` (trie_heap.hpp 678-682) and
`has_sibling` (728-733). -/
def scan (h : Heap) (parent skip : Nat) : Nat → Nat → Option Bool
  | 0, _ => some false
  | n + 1, i =>
    (rdC h i).bind fun c =>
      if c < h.len then
        if c = (parent : Int) ∧ i ≠ skip then some true else scan h parent skip n (i + 1)
      else none

/-- `has_child(parent)`, trie_heap.hpp 664-686 (a transition by a byte, not the empty one). -/
def hasChild (h : Heap) (parent : Nat) : Option Bool :=
  if 1 ≤ parent ∧ parent < h.len ∧ h.base parent < h.len then
    let b := h.base parent
    if 1 ≤ b then scan h parent 0 (min (b.toNat + nullValue) h.len - b.toNat) b.toNat
    else some false
  else none

/-- `has_null(parent)`, trie_heap.hpp 690-706. -/
def hasNull (h : Heap) (parent : Nat) : Option Bool :=
  if 1 ≤ parent ∧ parent < h.len ∧ h.base parent < h.len then
    let b := h.base parent
    if 1 ≤ b then
      some (decide (b.toNat + nullValue < h.len ∧ h.check (b.toNat + nullValue) = (parent : Int)))
    else some false
  else none

/-- `has_sibling(idx)`, trie_heap.hpp 710-735 (the empty transition is not counted). -/
def hasSibling (h : Heap) (idx : Nat) : Option Bool :=
  if idx < h.len then
    if idx ≤ 1 then some false
    else
      let p := h.check idx
      if 1 ≤ p ∧ p < h.len then
        let b := h.base p.toNat
        if 1 ≤ b ∧ b < h.len then
          scan h p.toNat idx (min (b.toNat + nullValue) h.len - b.toNat) b.toNat
        else none
      else none
  else none

end Verif.Model.Trie
