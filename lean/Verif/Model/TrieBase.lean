import Verif.Model.TrieHeap

/-!
# Model of `wordring::detail::trie_base` and `wordring::detail::stable_trie_base`

Sources: `/repo/include/wordring/trie/trie_base.hpp`,
`/repo/include/wordring/trie/stable_trie_base.hpp`.

Keys are lists of labels; the code casts every character to `std::uint8_t`, so a
key is a list of numbers below 256.  `none` is undefined behaviour or a failed
`assert`.  Iterators are node indices (0 = `cend()`, 1 = root).
-/
namespace Verif.Model.Trie

/-- Loop that skips existing transitions, trie_base.hpp 467-472 and
stable_trie_base.hpp 500-505: the last node and the remaining key. -/
def skipLoop (h : Heap) : Nat → List Nat → Option (Nat × List Nat)
  | parent, [] => some (parent, [])
  | parent, l :: ls =>
    (at_ h parent l).bind fun idx =>
      if idx ≠ 0 then skipLoop h idx ls else some (parent, l :: ls)

/-- Loop that adds the remaining transitions one by one, trie_base.hpp 497-503:
returns the state, the last base (0 if none) and the last node. -/
def chainLoop : Heap → Nat → Nat → List Nat → Option (Heap × Nat × Nat)
  | h, base, parent, [] => some (h, base, parent)
  | h, _, parent, l :: ls =>
    (add h parent [l]).bind fun r => chainLoop r.1 r.2 (r.2 + l) ls

/-- `++m_c.front().m_base` and `--m_c.front().m_base`. -/
def bump (h : Heap) (d : Int) : Option Heap := wrB h 0 (h.base 0 + d)

/-- Adding the empty transition with a value, trie_base.hpp 480-482 and 490-492. -/
def addNull (h : Heap) (parent : Nat) (v : Int) : Option Heap :=
  (add h parent [nullValue]).bind fun r =>
  (rdB r.1 (r.2 + nullValue)).bind fun b =>
  if b = 0 then wrB r.1 (r.2 + nullValue) v else none

/-- `std::numeric_limits<int32_t>::max()`. -/
def valueMax : Nat := 2147483647

namespace Base

/-- "Empty transition" part of `insert`, trie_base.hpp 476-493.  The two tests are evaluated
first; they are pure and have the same assertions, so short-circuiting does not matter. -/
def insertNull (h : Heap) (parent : Nat) (rest : List Nat) (value : Nat) : Option Heap :=
  (hasChild h parent).bind fun hc =>
  (hasNull h parent).bind fun hn =>
  if hc = true then
    if rest = [] ∧ hn = false then
      (addNull h parent (-(value : Int))).bind fun h => bump h 1
    else some h
  else if parent ≠ 1 ∧ hn = false ∧ rest ≠ [] then
    (rdB h parent).bind fun val => if val ≤ 0 then addNull h parent val else none
  else some h

/-- `insert(first, last, value)`, trie_base.hpp 458-513: new state and node index. -/
def insertKey (h : Heap) (key : List Nat) (value : Nat) : Option (Heap × Nat) :=
  if value ≤ valueMax then
    if key = [] then some (h, 0)
    else
      (skipLoop h 1 key).bind fun s =>
      (if s.2 ≠ [] then bump h 1 else some h).bind fun h =>
      (insertNull h s.1 s.2 value).bind fun h =>
      (chainLoop h 0 s.1 s.2).bind fun r =>
      (if r.2.1 ≠ 0 then
          (rdB r.1 r.2.2).bind fun b => if b = 0 then wrB r.1 r.2.2 (-(value : Int)) else none
        else some r.1).bind fun h =>
      if r.2.2 ≠ 1 then some (h, r.2.2) else none
  else none

/-- Loop of `erase(pos)`, trie_base.hpp 543-564. -/
def eraseLoop : Nat → Heap → Nat → Option Heap
  | 0, _, _ => none
  | n + 1, h, idx =>
    (hasNull h idx).bind fun hn =>
    if hn = true then
      (rdB h idx).bind fun b =>
      (freeOne h (b.toNat + nullValue)).bind fun r =>
      (hasChild r.1 idx).bind fun hc =>
      if hc = false then wrB r.1 idx 0 else some r.1
    else
      (hasSibling h idx).bind fun hs =>
      (rdC h idx).bind fun c =>
      let parent : Int := if hs = false then c else 0
      if 0 ≤ parent ∧ parent < h.len then
        (if idx ≠ 1 then (freeOne h idx).map Prod.fst else some h).bind fun h =>
        if parent = 0 then some h else eraseLoop n h parent.toNat
      else none

/-- `erase(pos)`, trie_base.hpp 536-568. -/
def eraseAt (h : Heap) (idx : Nat) : Option Heap :=
  if idx < h.len then
    if idx ≤ 1 then some h
    else
      (isTail h idx).bind fun t =>
      if t = false then some h
      else
        (eraseLoop h.len h idx).bind fun h =>
        (bump h (-1)).bind fun h =>
        if h.base 0 = 0 then some Heap.empty else some h
  else none

/-- `lookup(first, last)`, trie_base.hpp 618-653: node and unread rest of the key. -/
def lookup (h : Heap) (key : List Nat) : Option (Nat × List Nat) := skipLoop h 1 key

/-- `search(first, last)`, trie_base.hpp 664-671. -/
def search (h : Heap) (key : List Nat) : Option Nat :=
  (lookup h key).map fun r => if r.2 = [] then r.1 else 0

/-- `find(first, last)`, trie_base.hpp 697-707. -/
def find (h : Heap) (key : List Nat) : Option Nat :=
  (lookup h key).bind fun r =>
    if r.2 = [] then (isTail h r.1).map fun t => if t = true then r.1 else 0 else some 0

/-- `contains(first, last)`, trie_base.hpp 731-739. -/
def contains (h : Heap) (key : List Nat) : Option Bool :=
  (lookup h key).bind fun r =>
    if r.2 = [] then isTail h r.1 else some false

/-- `erase(first, last)`, trie_base.hpp 578-581. -/
def eraseKey (h : Heap) (key : List Nat) : Option Heap :=
  (find h key).bind fun idx => eraseAt h idx

/-- Index of the node that holds the value of node `idx`, trie_base.hpp 261-264, 303-306. -/
def valueIndex (h : Heap) (idx : Nat) : Option Nat :=
  (rdB h idx).map fun b => if b ≤ 0 then idx else b.toNat + nullValue

/-- Read through the value proxy, trie_heap.hpp 63-67. -/
def readValue (h : Heap) (i : Nat) : Option Int :=
  (rdB h i).bind fun b => if b ≤ 0 then some (-b) else none

/-- `at(first, last)` read as a value, trie_base.hpp 296-309: `some none` is
`std::out_of_range`. -/
def atKey (h : Heap) (key : List Nat) : Option (Option Int) :=
  (find h key).bind fun idx =>
    if idx = 0 then some none
    else (valueIndex h idx).bind fun i => (readValue h i).map some

/-- `at(first, last) = value`, trie_base.hpp 296-309 and trie_heap.hpp 57-61; the flag tells
that `std::out_of_range` was thrown. -/
def setKey (h : Heap) (key : List Nat) (value : Nat) : Option (Heap × Bool) :=
  (find h key).bind fun idx =>
    if idx = 0 then some (h, true)
    else (valueIndex h idx).bind fun i => (wrB h i (-(value : Int))).map fun h => (h, false)

/-- `operator[](key) = value`, trie_base.hpp 371-384. -/
def indexSet (h : Heap) (key : List Nat) (value : Nat) : Option Heap :=
  (find h key).bind fun idx =>
  (if idx = 0 then insertKey h key 0 else some (h, idx)).bind fun r =>
  (valueIndex r.1 r.2).bind fun i => wrB r.1 i (-(value : Int))

/-- `size()`, trie_base.hpp 434. -/
def size (h : Heap) : Int := h.base 0

end Base

namespace Stable

/-- `insert(first, last, value)`, stable_trie_base.hpp 491-526: new state and node index. -/
def insertKey (h : Heap) (key : List Nat) (value : Nat) : Option (Heap × Nat) :=
  if value ≤ valueMax then
    if key = [] then some (h, 0)
    else
      (skipLoop h 1 key).bind fun s =>
      (hasNull h s.1).bind fun hn =>
      if hn = false ∨ s.2 ≠ [] then
        (chainLoop h 0 s.1 s.2).bind fun r =>
        if r.2.2 ≠ 1 then
          (add r.1 r.2.2 [nullValue]).bind fun q =>
          (wrB q.1 (q.2 + nullValue) (-(value : Int))).bind fun h =>
          (bump h 1).bind fun h => some (h, r.2.2)
        else none
      else some (h, s.1)
  else none

/-- Loop of `erase(pos)`, stable_trie_base.hpp 563-568 (both pure tests are evaluated first). -/
def eraseLoop : Nat → Heap → Nat → Option Heap
  | 0, _, _ => none
  | n + 1, h, idx =>
    if idx = 1 then some h
    else
      (hasNull h idx).bind fun hn =>
      (hasChild h idx).bind fun hc =>
      if hn = false ∧ hc = false then
        (rdC h idx).bind fun parent =>
        (freeOne h idx).bind fun r =>
        if 0 ≤ parent then eraseLoop n r.1 parent.toNat else none
      else some h

/-- `erase(pos)`, stable_trie_base.hpp 551-572. -/
def eraseAt (h : Heap) (idx : Nat) : Option Heap :=
  if idx < h.len then
    if idx ≤ 1 then some h
    else
      (hasNull h idx).bind fun hn =>
      if hn = false then some h
      else
        (rdB h idx).bind fun b =>
        (freeOne h (b.toNat + nullValue)).bind fun r =>
        (eraseLoop h.len r.1 idx).bind fun h =>
        (bump h (-1)).bind fun h =>
        if h.base 0 = 0 then some Heap.empty else some h
  else none

/-- `find(first, last)`, stable_trie_base.hpp 690-700. -/
def find (h : Heap) (key : List Nat) : Option Nat :=
  (skipLoop h 1 key).bind fun r =>
    if r.2 = [] then (hasNull h r.1).map fun t => if t = true then r.1 else 0 else some 0

/-- `contains(first, last)`, stable_trie_base.hpp 724-732. -/
def contains (h : Heap) (key : List Nat) : Option Bool :=
  (skipLoop h 1 key).bind fun r => if r.2 = [] then hasNull h r.1 else some false

/-- `erase(first, last)`, stable_trie_base.hpp 584-600. -/
def eraseKey (h : Heap) (key : List Nat) : Option Heap :=
  (find h key).bind fun idx => eraseAt h idx

/-- `at(pos, idx)`, stable_trie_base.hpp 279-287: index of the node holding the value. -/
def valueIndex (h : Heap) (idx : Nat) : Option Nat :=
  (rdB h idx).bind fun b =>
    let i := b + nullValue
    if 1 < i ∧ i < h.len then some i.toNat else none

/-- `at(key)` read as a value, stable_trie_base.hpp 330-350: `some none` is
`std::out_of_range`. -/
def atKey (h : Heap) (key : List Nat) : Option (Option Int) :=
  (find h key).bind fun idx =>
    if idx = 0 then some none
    else (valueIndex h idx).bind fun i => (Base.readValue h i).map some

/-- `at(key) = value`; the flag tells that `std::out_of_range` was thrown. -/
def setKey (h : Heap) (key : List Nat) (value : Nat) : Option (Heap × Bool) :=
  (find h key).bind fun idx =>
    if idx = 0 then some (h, true)
    else (valueIndex h idx).bind fun i => (wrB h i (-(value : Int))).map fun h => (h, false)

/-- `operator[](key) = value`, stable_trie_base.hpp 403-413. -/
def indexSet (h : Heap) (key : List Nat) (value : Nat) : Option Heap :=
  (find h key).bind fun idx =>
  (if idx = 0 then insertKey h key 0 else some (h, idx)).bind fun r =>
  (valueIndex r.1 r.2).bind fun i => wrB r.1 i (-(value : Int))

/-- Index of the terminator node of a stored key, as returned by `at(pos, idx)`. -/
def terminator (h : Heap) (key : List Nat) : Option (Option Nat) :=
  (find h key).bind fun idx => if idx = 0 then some none else (valueIndex h idx).map some

end Stable

end Verif.Model.Trie
