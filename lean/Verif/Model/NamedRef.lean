import Verif.Model.HtmlTok
import Verif.Model.TrieIter
import Verif.Model.TrieBase
import Verif.Model.Tables.NamedRef
/-
Model of the look up of named character references: `match_named_character_reference`,
include/wordring/whatwg/html/parsing/input_stream.hpp:321-372, on the tables of lib/whatwg/html/parsing/atom_tbl.cpp:1214-4757.
`none` is undefined behaviour; an iterator is its index (0 is the end, 1 the root).
-/
namespace Verif.Model.NamedRef
open Verif.Model.Trie Verif.Model.Tables.NamedRef

/-- `named_character_reference_idx_tbl`, atom_tbl.cpp:1214-4530, a `trie<char32_t>`. -/
def heap : Heap := ⟨baseTbl.size, fun i => (baseTbl.get i : Int) - 4096, fun i => (checkTbl.get i : Int)⟩

/-- The `for` loop, input_stream.hpp:342-350, over the rest of the buffer: `tail` and `j`. -/
def matchLoop (h : Heap) : List Nat → Nat → Nat → Nat → Nat → Option (Nat × Nat)
  | [], _, tail, j, _ => some (tail, j)
  | c :: cs, it, tail, j, i =>
    if it = 0 then some (tail, j)
    else
      (wideAt 4 h it c).bind fun it =>
      (itBool h it).bind fun b =>
      if b then matchLoop h cs it it (i + 1) (i + 1) else matchLoop h cs it tail j (i + 1)

/-- The `while` loop, 354-362: `len` and `tail`. -/
def parentLoop (h : Heap) (j : Nat) : Nat → Nat → Option (Nat × Nat)
  | 0, _ => none
  | n + 1, tail =>
    if tail = 1 then some (0, tail)
    else
      (itBool h tail).bind fun b =>
      if b then some (j, tail) else (wideParent 4 h tail).bind (parentLoop h j n)

/-- `named_character_reference_map_tbl[idx]`, 366-368, of a `std::array`. -/
def mapAt (idx : Nat) : Option (Nat × Nat) :=
  if idx < mapTbl.size then some (mapTbl.get idx % 2 ^ 20, mapTbl.get idx / 2 ^ 20) else none

/-- `match_named_character_reference`, 332-372; `tail.string(s)` (351-352) has no effect but must be defined. The result is the
name found, that is the first `len` characters of the buffer, and the two code points. -/
def find : HtmlTok.Find := fun s =>
  (matchLoop heap s 1 1 0 0).bind fun (tail, j) =>
  (itString 4 heap tail).bind fun _ =>
  (parentLoop heap j (heap.len + 1) tail).bind fun (len, tail) =>
  if len ≠ 0 then
    (Base.valueIndex heap tail).bind fun i =>
    (Base.readValue heap i).bind fun idx =>
    (mapAt idx.toNat).map fun (a, b) => some (s.take len, a, b)
  else some none

end Verif.Model.NamedRef
