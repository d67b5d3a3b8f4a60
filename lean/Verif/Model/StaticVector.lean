/-
Model of include/wordring/static_vector/static_vector.hpp: a fixed array of `N` elements and a size.
`none` = failed assertion or access outside the array (undefined behaviour in release builds).
-/
namespace Verif.Model.StaticVector

/-- `m_container` (std::array<T, N>) and `m_size` (static_vector.hpp:569-571). -/
structure SV (α : Type) where
  store : List α
  size : Nat
deriving DecidableEq, Repr

variable {α : Type}

/-- `*(m_container.data() + i) = x`. -/
def write (st : List α) (i : Nat) (x : α) : Option (List α) := if i < st.length then some (st.set i x) else none

/-- `std::copy_backward` of the `n` elements at `first` to the `n` places at `dfirst`:
`while (first != last) *--dlast = *--last`. -/
def copyBackward : Nat → Nat → Nat → List α → Option (List α)
  | 0, _, _, st => some st
  | n + 1, first, dfirst, st =>
    match st[first + n]? with
    | none => none
    | some x => (write st (dfirst + n) x).bind (copyBackward n first dfirst)

/-- `std::copy` of the `n` elements at `first` to `d`: `while (first != last) *d++ = *first++`. -/
def copyForward : Nat → Nat → Nat → List α → Option (List α)
  | 0, _, _, st => some st
  | n + 1, first, d, st =>
    match st[first]? with
    | none => none
    | some x => (write st d x).bind (copyForward n (first + 1) (d + 1))

/-- `for (...) *p++ = *it++` over a list of values. -/
def writeAll : List α → Nat → List α → Option (List α)
  | [], _, st => some st
  | x :: xs, p, st => (write st p x).bind (writeAll xs (p + 1))

/-- Default constructor (296-300): value-initialised array, size 0. -/
def empty (N : Nat) (dflt : α) : SV α := ⟨List.replicate N dflt, 0⟩

/-- `assign(first, last)` / `assign(ilist)` / `operator=(ilist)` (345-352, 360-372). -/
def assign (v : SV α) (xs : List α) : Option (SV α) :=
  if xs.length ≤ v.store.length then (writeAll xs 0 v.store).map (⟨·, xs.length⟩) else none

/-- `assign(count, value)` (354-358). -/
def assignN (v : SV α) (count : Nat) (x : α) : Option (SV α) :=
  if count ≤ v.store.length then (writeAll (List.replicate count x) 0 v.store).map (⟨·, count⟩) else none

/-- `at(pos)` (376-378): `std::array::at`, `none` = throws out_of_range. -/
def at? (v : SV α) (pos : Nat) : Option α := if pos < v.store.length then v.store[pos]? else none

/-- `operator[]` (380-382), `none` = outside the array. -/
def get? (v : SV α) (pos : Nat) : Option α := v.store[pos]?

/-- `back()` (388-390). -/
def back? (v : SV α) : Option α := if v.size = 0 then none else v.store[v.size - 1]?

/-- `clear()` (434). -/
def clear (v : SV α) : SV α := { v with size := 0 }

/-- `insert(pos, value)` with a value that is not an element of the vector (436-456). -/
def insertOne (v : SV α) (pos : Nat) (x : α) : Option (SV α) :=
  if v.size < v.store.length then
    (copyBackward (v.size - pos) pos (pos + 1) v.store).bind fun st =>
      (write st pos x).map (⟨·, v.size + 1⟩)
  else none

/-- `insert(pos, v[i])` where the reference argument denotes the element at index `i` of the vector itself:
the reference is read on line 441, after the elements were moved on line 440. -/
def insertSelf (v : SV α) (pos i : Nat) : Option (SV α) :=
  if v.size < v.store.length then
    (copyBackward (v.size - pos) pos (pos + 1) v.store).bind fun st =>
      match st[i]? with
      | none => none
      | some x => (write st pos x).map (⟨·, v.size + 1⟩)
  else none

/-- `insert(pos, first, last)`, `insert(pos, ilist)` and `insert(pos, count, value)` (458-502; for the last one
`xs` is `count` copies). -/
def insertAll (v : SV α) (pos : Nat) (xs : List α) : Option (SV α) :=
  if v.size + xs.length ≤ v.store.length then
    (copyBackward (v.size - pos) pos (pos + xs.length) v.store).bind fun st =>
      (writeAll xs pos st).map (⟨·, v.size + xs.length⟩)
  else none

/-- `erase(pos)` (504-514). -/
def erase (v : SV α) (pos : Nat) : Option (SV α) :=
  if pos = v.size then none else
  (copyForward (v.size - (pos + 1)) (pos + 1) pos v.store).map (⟨·, v.size - 1⟩)

/-- `erase(first, last)` (516-525). -/
def eraseRange (v : SV α) (first last : Nat) : Option (SV α) :=
  if first = v.size ∨ ¬ first ≤ last then none else
  (copyForward (v.size - last) last first v.store).map (⟨·, v.size - (last - first)⟩)

/-- `push_back(value)` (527-541). -/
def pushBack (v : SV α) (x : α) : Option (SV α) :=
  if v.size < v.store.length then (write v.store v.size x).map (⟨·, v.size + 1⟩) else none

/-- `pop_back()` (543-548). -/
def popBack (v : SV α) : Option (SV α) := if v.size = 0 then none else erase v (v.size - 1)

/-- `resize(count, value)` (555-561). -/
def resize (v : SV α) (count : Nat) (x : α) : Option (SV α) :=
  if ¬ count ≤ v.store.length then none
  else if count < v.size then eraseRange v count v.size
  else if v.size < count then insertAll v v.size (List.replicate (count - v.size) x)
  else some v

/-- `static_vector_iterator::operator+=` (158-163): the assertion compares with the size of the array, because
the iterator's container is the `std::array` (290). -/
def iterAdd (v : SV α) (pos n : Nat) : Option Nat := if pos + n < v.store.length then some (pos + n) else none

end Verif.Model.StaticVector
