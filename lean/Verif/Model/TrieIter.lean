import Verif.Model.TrieWide

/-!
# Model of the trie iterators

Sources: `/repo/include/wordring/trie/trie_heap_iterator.hpp` (`const_trie_heap_iterator`),
`trie_base_iterator.hpp`, `stable_trie_base_iterator.hpp`, `trie_iterator.hpp`
(`const_trie_iterator`).  An iterator is its `m_index` (0 is the end, 1 the root); the container is
the argument `h`.  `none` is undefined behaviour or a failed `assert`.
-/
namespace Verif.Model.Trie

/-- Loop of `find`, trie_heap_iterator.hpp 105: first index from `i` on, at most `n` further, whose
check is `check`. -/
def itScan (h : Heap) (check : Nat) : Nat → Nat → Nat
  | 0, i => i
  | n + 1, i => if h.check i = (check : Int) then i else itScan h check n (i + 1)

/-- `find(first, last, check)`, trie_heap_iterator.hpp 102-108. -/
def itFind (h : Heap) (first last check : Nat) : Nat :=
  let tail := min last h.len
  let r := itScan h check (tail - first) first
  if r ≠ tail then r else 0

/-- `mother()`, trie_heap_iterator.hpp 112-122. -/
def itMother (h : Heap) (i : Nat) : Option Nat :=
  if 1 ≤ i ∧ i < h.len then some (if 1 ≤ h.check i then (h.check i).toNat else 0) else none

/-- `base()`, trie_heap_iterator.hpp 127-138: the base of the parent. -/
def itBase (h : Heap) (i : Nat) : Option Nat :=
  (itMother h i).bind fun p =>
  if p ≠ 0 then (rdB h p).bind fun b => if 1 ≤ b then some b.toNat else none else none

/-- `value()`, trie_heap_iterator.hpp 41-46. -/
def itValue (h : Heap) (i : Nat) : Option Nat :=
  (itBase h i).bind fun b => if b ≤ i ∧ i < b + nullValue then some (i - b) else none

/-- `at_index(label)`, trie_heap_iterator.hpp 50-64. -/
def itAt (h : Heap) (i label : Nat) : Option Nat :=
  (rdB h i).map fun b =>
    if 1 ≤ b then
      let j := b.toNat + label
      if j < h.len ∧ h.check j = (i : Int) then j else 0
    else 0

/-- `advance()`, trie_heap_iterator.hpp 68. -/
def itNext (h : Heap) (i : Nat) : Option Nat :=
  (itBase h i).bind fun b => (itMother h i).map fun p => itFind h (i + 1) (b + nullValue) p

/-- `parent_index()`, trie_heap_iterator.hpp 73-78. -/
def itParent (h : Heap) (i : Nat) : Option Nat := climb h 1 i

/-- `begin_index()`, trie_heap_iterator.hpp 84-92. -/
def itBegin (h : Heap) (i : Nat) : Option Nat :=
  if 1 ≤ i then
    (rdB h i).map fun b => if 1 ≤ b then itFind h b.toNat (b.toNat + nullValue) i else 0
  else none

/-- `operator bool` of `const_trie_base_iterator`, trie_base_iterator.hpp 67-80. -/
def itBool (h : Heap) (i : Nat) : Option Bool :=
  if i ≤ 1 then some false
  else (rdB h i).map fun b =>
    if b ≤ 0 then true
    else decide (b.toNat + nullValue < h.len ∧ h.check (b.toNat + nullValue) = (i : Int))

/-- `operator bool` of `const_stable_trie_base_iterator`, stable_trie_base_iterator.hpp 68, and `has_null()`,
trie_heap_iterator.hpp 147-155; a negative base would make the index wrong, the model calls that `none`. -/
def itStableBool (h : Heap) (i : Nat) : Option Bool :=
  if i ≤ 1 then some false
  else (rdB h i).bind fun b =>
    if 0 ≤ b then
      some (decide (b.toNat + nullValue < h.len ∧ h.check (b.toNat + nullValue) = (i : Int)))
    else none

/-- `parent()`, trie_iterator.hpp 279-294: the assertion of the loop makes 0 a failure for `w > 1`. -/
def wideParent (w : Nat) (h : Heap) (i : Nat) : Option Nat :=
  if w = 1 then itParent h i
  else
    (climb h w i).bind fun p => if 1 ≤ p ∧ p < h.len then some p else none

/-- Loop of `operator*`, trie_iterator.hpp 99-110: `result`, shifted bytes from the last one on. -/
def wideValueLoop (h : Heap) : Nat → Nat → Nat → Nat → Option Nat
  | 0, _, _, result => some result
  | n + 1, k, idx, result =>
    (rdC h idx).bind fun parent =>
    if 1 ≤ parent ∧ parent < h.len then
      (rdB h parent.toNat).bind fun base =>
      if 1 ≤ base ∧ base < h.len ∧ base ≤ idx then
        wideValueLoop h n (k + 1) parent.toNat (result + (idx - base.toNat) <<< (k * 8))
      else none
    else none

/-- `operator*`, trie_iterator.hpp 87-114. -/
def wideValue (w : Nat) (h : Heap) (i : Nat) : Option Nat :=
  if 1 < i ∧ i < h.len then
    if w = 1 then itValue h i else wideValueLoop h w 0 i 0
  else none

/-- Loop of `operator[]`, trie_iterator.hpp 152-171, over the bytes of the label; reading `m_check` at `base + ch`
is unchecked. -/
def wideAtLoop (h : Heap) : List Nat → Nat → Option Nat
  | [], parent => some parent
  | ch :: cs, parent =>
    (rdB h parent).bind fun base =>
    if base ≤ 0 then some 0
    else
      let idx := base.toNat + ch
      (rdC h idx).bind fun c => if c = (parent : Int) then wideAtLoop h cs idx else some 0

/-- `operator[](label)`, trie_iterator.hpp 141-175. -/
def wideAt (w : Nat) (h : Heap) (i label : Nat) : Option Nat :=
  if w = 1 then itAt h i label
  else if 1 ≤ i ∧ i < h.len then wideAtLoop h (Verif.Model.Serialize.serialize w label) i else none

/-- First loop of `operator++`, trie_iterator.hpp 188-200: `n = coefficient - lv`; the node found to the right and the
number of levels climbed. -/
def nextUp (h : Heap) : Nat → Nat → Nat → Option (Nat × Nat)
  | 0, lv, _ => some (0, lv)
  | n + 1, lv, i =>
    (rdC h i).bind fun parent =>
    if 0 ≤ parent then
      (rdB h parent.toNat).bind fun base =>
      if 0 ≤ base then
        let r := itFind h (i + 1) (base.toNat + nullValue) parent.toNat
        if r ≠ 0 then some (r, lv) else nextUp h n (lv + 1) parent.toNat
      else none
    else none

/-- Second loop of `operator++`, trie_iterator.hpp 205-211. -/
def nextDown (h : Heap) : Nat → Nat → Option Nat
  | 0, idx => some idx
  | n + 1, idx =>
    (rdB h idx).bind fun base =>
    if 0 ≤ base then
      let r := itFind h base.toNat (base.toNat + nullValue) idx
      if r ≠ 0 then nextDown h n r else none
    else none

/-- `operator++`, trie_iterator.hpp 177-218. -/
def wideNext (w : Nat) (h : Heap) (i : Nat) : Option Nat :=
  if w = 1 then itNext h i
  else
    (nextUp h w 0 i).bind fun r => if r.1 ≠ 0 then nextDown h r.2 r.1 else some 0

/-- Loop of `begin()`, trie_iterator.hpp 306-313: `n = coefficient - lv`.  The loop ends at index 0 with `lv` below
`coefficient`, or with `lv = coefficient`; both give 0 when 0 was reached (315-317). -/
def beginLoop (h : Heap) : Nat → Nat → Option Nat
  | 0, idx => some idx
  | n + 1, idx =>
    if idx ≠ 0 then
      (rdB h idx).bind fun base =>
        beginLoop h n (if 1 ≤ base then itFind h base.toNat (base.toNat + nullValue) idx else 0)
    else some 0

/-- `begin()`, trie_iterator.hpp 296-321. -/
def wideBegin (w : Nat) (h : Heap) (i : Nat) : Option Nat :=
  if w = 1 then itBegin h i else beginLoop h w i

/-- Loop of `string(result)`, trie_iterator.hpp 255 and trie_base_iterator.hpp 108 (labels from the last to the
first); `fuel` bounds the number of steps. -/
def stringLoop (w : Nat) (h : Heap) : Nat → Nat → Option (List Nat)
  | 0, _ => none
  | n + 1, p =>
    if 1 < p then
      (wideValue w h p).bind fun l => (wideParent w h p).bind fun q => (stringLoop w h n q).map (l :: ·)
    else some []

/-- `string(result)`, trie_iterator.hpp 252-257. -/
def itString (w : Nat) (h : Heap) (i : Nat) : Option (List Nat) := (stringLoop w h (h.len + 1) i).map List.reverse

/-- `for (auto c = it.begin(); c != it.end(); ++c)`: the children visited; `fuel` bounds the number of steps. -/
def childLoop (w : Nat) (h : Heap) : Nat → Nat → Option (List Nat)
  | 0, _ => none
  | n + 1, i => if i = 0 then some [] else (wideNext w h i).bind fun j => (childLoop w h n j).map (i :: ·)

/-- The children of a node, in the order of iteration. -/
def children (w : Nat) (h : Heap) (i : Nat) : Option (List Nat) :=
  (wideBegin w h i).bind fun j => childLoop w h (h.len + 1) j

end Verif.Model.Trie
