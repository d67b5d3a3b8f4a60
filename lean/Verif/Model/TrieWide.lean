import Verif.Model.TrieBase
import Verif.Model.Serialize

/-!
# Model of `wordring::basic_trie`

Source: `/repo/include/wordring/trie/trie.hpp`.

`w` is `coefficient` (trie.hpp 170), the number of bytes of a label; labels are
numbers below `256 ^ w` (`static_cast<unsigned_type>` of the character).  For
`w = 1` the code calls the byte functions directly, which is the same as
`serialize 1`.  The base container is `trie_base` (`Wide`) or
`stable_trie_base` (`WideStable`).
-/
namespace Verif.Model.Trie
open Verif.Model.Serialize

/-- The bytes that `serialize_iterator(first) .. serialize_iterator(last)` delivers
(trie.hpp 454-455, 653-654, 818-819; serialize_iterator.hpp 97-109, see `SerIt.run`). -/
def bytesOf (w : Nat) (key : List Nat) : List Nat := key.flatMap (serialize w)

/-- `n` times `ret.first = ret.first.parent()`, trie.hpp 825 and trie_heap_iterator.hpp 73-78. -/
def climb (h : Heap) : Nat → Nat → Option Nat
  | 0, idx => some idx
  | n + 1, idx =>
    if 1 ≤ idx then
      (rdC h idx).bind fun c => if 0 ≤ c then climb h n c.toNat else none
    else none

/-- `lookup(first, last)`, trie.hpp 803-832: node and unread labels.  `i` counts the bytes
matched (trie_base.hpp 618-636, stable_trie_base.hpp 622-640); the serialize iterator has moved
its base iterator once every `w` bytes. -/
def wideLookup (w : Nat) (h : Heap) (key : List Nat) : Option (Nat × List Nat) :=
  (skipLoop h 1 (bytesOf w key)).bind fun r =>
  let i := (bytesOf w key).length - r.2.length
  (climb h (i % w) r.1).map fun p => (p, key.drop (i / w))

/-- `search(first, last)`, trie.hpp 842-852. -/
def wideSearch (w : Nat) (h : Heap) (key : List Nat) : Option Nat :=
  (wideLookup w h key).map fun r => if r.2 = [] then r.1 else 0

/-- `find(first, last)`, trie.hpp 892-905. -/
def wideFind (w : Nat) (h : Heap) (key : List Nat) : Option Nat :=
  (wideLookup w h key).bind fun r =>
    if r.2 = [] then (isTail h r.1).map fun t => if t = true then r.1 else 0 else some 0

/-- `contains(first, last)`, trie.hpp 943-954. -/
def wideContains (w : Nat) (h : Heap) (key : List Nat) : Option Bool :=
  (wideLookup w h key).bind fun r => if r.2 = [] then isTail h r.1 else some false

namespace Wide

/-- `insert(first, last, value)`, trie.hpp 643-660. -/
def insertKey (w : Nat) (h : Heap) (key : List Nat) (value : Nat) : Option (Heap × Nat) :=
  Base.insertKey h (bytesOf w key) value

/-- `erase(first, last)`, trie.hpp 738-744, 712-715. -/
def eraseKey (w : Nat) (h : Heap) (key : List Nat) : Option Heap :=
  (wideFind w h key).bind fun idx => Base.eraseAt h idx

/-- `at(first, last)` read, trie.hpp 444-461. -/
def atKey (w : Nat) (h : Heap) (key : List Nat) : Option (Option Int) := Base.atKey h (bytesOf w key)

/-- `at(first, last) = value`, trie.hpp 444-461. -/
def setKey (w : Nat) (h : Heap) (key : List Nat) (value : Nat) : Option (Heap × Bool) :=
  Base.setKey h (bytesOf w key) value

/-- `operator[](key) = value`, trie.hpp 550-557. -/
def indexSet (w : Nat) (h : Heap) (key : List Nat) (value : Nat) : Option Heap :=
  (wideFind w h key).bind fun idx =>
  (if idx = 0 then insertKey w h key 0 else some (h, idx)).bind fun r =>
  (Base.valueIndex r.1 r.2).bind fun i => wrB r.1 i (-(value : Int))

/-- `assign(first, last)` of a list of strings for labels wider than a byte, trie.hpp 337-344: the
container is not cleared. -/
def assign (w : Nat) : Heap → List (List Nat) → Option Heap
  | h, [] => some h
  | h, k :: ks => (insertKey w h k 0).bind fun r => assign w r.1 ks

end Wide

namespace WideStable

/-- `insert(first, last, value)`, trie.hpp 643-660. -/
def insertKey (w : Nat) (h : Heap) (key : List Nat) (value : Nat) : Option (Heap × Nat) :=
  Stable.insertKey h (bytesOf w key) value

/-- `erase(first, last)`, trie.hpp 738-744, 712-715. -/
def eraseKey (w : Nat) (h : Heap) (key : List Nat) : Option Heap :=
  (wideFind w h key).bind fun idx => Stable.eraseAt h idx

/-- `at(first, last)` read, trie.hpp 444-461. -/
def atKey (w : Nat) (h : Heap) (key : List Nat) : Option (Option Int) := Stable.atKey h (bytesOf w key)

/-- `at(first, last) = value`, trie.hpp 444-461. -/
def setKey (w : Nat) (h : Heap) (key : List Nat) (value : Nat) : Option (Heap × Bool) :=
  Stable.setKey h (bytesOf w key) value

end WideStable

end Verif.Model.Trie
