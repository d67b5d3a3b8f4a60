import Verif.Model.TrieBase
import Verif.Model.Serialize

/-!
# Model of saving and loading a trie

Source: `/repo/include/wordring/trie/trie_heap.hpp` (`operator<<`, `operator>>`, `ibegin`, `iend`, `assign` from
integers, `trie_heap_serialize_iterator`).  Streams are byte lists; a stream error is not modelled.
-/
namespace Verif.Model.Trie
open Verif.Model.Serialize

/-- The nodes of `m_c` in order. -/
def nodes (h : Heap) : List (Int × Int) := (List.range h.len).map fun i => (h.base i, h.check i)

/-- A node vector with the given nodes. -/
def ofNodes (ns : List (Int × Int)) : Heap :=
  ⟨ns.length, fun i => (ns.getD i (0, 0)).1, fun i => (ns.getD i (0, 0)).2⟩

/-- The range `[ibegin(), iend())`, trie_heap.hpp 108-137 and 297-330: base and check of every node, converted to
`std::uint32_t`. -/
def words (ns : List (Int × Int)) : List Nat := ns.flatMap fun n => [toUnsigned 4 n.1, toUnsigned 4 n.2]

/-- `operator<<`, trie_heap.hpp 829-843; `sizeof(trie_node)` is 8. -/
def save (ns : List (Int × Int)) : Option (List Nat) :=
  (SerIt.run 4 ((words ns).length * 4) ⟨words ns, 0⟩).map
    fun bs => serialize 8 (ns.length * 8 % 2 ^ 64) ++ bs

/-- Loop of `operator>>`, trie_heap.hpp 856-862: at most `n` more nodes while the stream is not exhausted. -/
def loadLoop : Nat → List Nat → List (Int × Int) × List Nat
  | 0, s => ([], s)
  | _ + 1, [] => ([], [])
  | n + 1, c :: s =>
    let a := deserialize 4 (c :: s)
    let b := deserialize 4 a.2
    let r := loadLoop n b.2
    ((fromUnsigned 4 a.1, fromUnsigned 4 b.1) :: r.1, r.2)

/-- `operator>>`, trie_heap.hpp 845-865: the nodes read and the rest of the stream. -/
def load (s : List Nat) : List (Int × Int) × List Nat :=
  let a := deserialize 8 s
  loadLoop a.1 a.2

/-- `for (j = 0; j < n && first != last; ++j) v = (v << 8) + *first++`, trie_heap.hpp 286-287, in 32 bits. -/
def foldInts : Nat → Nat → List Nat → Nat × List Nat
  | 0, v, s => (v, s)
  | _ + 1, v, [] => (v, [])
  | k + 1, v, b :: s => foldInts k (((v <<< 8) + b) % 2 ^ 32) s

/-- `assign(first, last)` from integers of `w` bytes, trie_heap.hpp 259-292; `fuel` bounds the number of nodes.
For 32-bit integers an odd length reads behind the end. -/
def assignInts (w : Nat) : Nat → List Nat → Option (List (Int × Int))
  | _, [] => some []
  | 0, _ :: _ => none
  | fuel + 1, x :: s =>
    if w = 4 then
      match s with
      | [] => none
      | y :: s => (assignInts w fuel s).map ((fromUnsigned 4 x, fromUnsigned 4 y) :: ·)
    else
      let a := foldInts (4 / w) 0 (x :: s)
      let b := foldInts (4 / w) 0 a.2
      (assignInts w fuel b.2).map ((fromUnsigned 4 a.1, fromUnsigned 4 b.1) :: ·)

end Verif.Model.Trie
