import Verif.Model.TrieIter
/-
Model of `basic_atom` and `basic_atom_set` (include/wordring/string/atom.hpp) on `stable_trie<Label>` (`WideStable`). `w` is the
number of bytes of a character. An atom is an iterator, that is the index of a node (`m_index`, 0 for the empty atom) in the
container `h` at the time of the call. `none` = a failing assertion or an access outside of the node array. Indices are unbounded
(as in `Verif.Model.TrieHeap`).
-/
namespace Verif.Model.Atom
open Verif.Model.Trie

/-- `operator std::uint32_t` (atom.hpp:114-128): the number of an atom. -/
def number (h : Heap) (a : Nat) : Option Nat :=
  if a ≠ 0 then
    (rdB h a).bind fun b =>
      if 1 < b + nullValue ∧ b + nullValue < h.len then
        (rdC h (b + nullValue).toNat).bind fun c => if c = (a : Int) then some (b + nullValue).toNat else none
      else none
  else some 0

/-- `operator string_type` (150-155). -/
def text (w : Nat) (h : Heap) (a : Nat) : Option (List Nat) := itString w h a

/-- `operator bool` (stable_trie_base_iterator.hpp:68). -/
def valid (h : Heap) (a : Nat) : Option Bool := itStableBool h a

/-- `at(std::uint32_t)` (472-481). -/
def ofNumber (h : Heap) (i : Nat) : Option Nat :=
  (rdC h i).bind fun idx =>
    if 1 < idx ∧ idx < h.len then
      (rdB h idx.toNat).bind fun b => if b + nullValue = (i : Int) then some idx.toNat else none
    else none

/-- `at(first, last)` and `at(string_view)` (506-510, 533-536). -/
def ofString (w : Nat) (h : Heap) (s : List Nat) : Option Nat := wideFind w h s

/-- `insert(first, last)` and `insert(string_view)` (587-602, 622-625): new state and atom. The value stored in the node behind the
empty transition is its own index. -/
def insert (w : Nat) (h : Heap) (s : List Nat) : Option (Heap × Nat) :=
  (WideStable.insertKey w h s 0).bind fun r =>
    (valid r.1 r.2).bind fun b =>
      if b = true then
        (Stable.valueIndex r.1 r.2).bind fun i => (wrB r.1 i (-(i : Int))).map fun h => (h, r.2)
      else some r

/-- `operator[](string_view)` (557-562). -/
def index (w : Nat) (h : Heap) (s : List Nat) : Option (Heap × Nat) :=
  (wideFind w h s).bind fun a =>
    (valid h a).bind fun b => if b = true then some (h, a) else insert w h s

/-- `erase(std::uint32_t)` (648-651). -/
def eraseId (h : Heap) (i : Nat) : Option Heap :=
  if i ≠ 0 then (ofNumber h i).bind fun a => Stable.eraseAt h a else some h

/-- `erase(first, last)` and `erase(string_view)` (673-677, 697-700). -/
def erase (w : Nat) (h : Heap) (s : List Nat) : Option Heap := (wideFind w h s).bind fun a => Stable.eraseAt h a

/-- `contains(first, last)` and `contains(string_view)` (711-715, 736-739). -/
def contains (w : Nat) (h : Heap) (s : List Nat) : Option Bool := wideContains w h s

/-- `assign(first, last)` with strings (440-444): the container is not cleared. -/
def assign (w : Nat) : Heap → List (List Nat) → Option Heap
  | h, [] => some h
  | h, s :: ss => (insert w h s).bind fun r => assign w r.1 ss

end Verif.Model.Atom
