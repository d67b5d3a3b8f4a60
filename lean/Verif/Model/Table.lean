/-
Index tables (include/wordring/whatwg/encoding/indexes.hpp, lib/whatwg/encoding/indexes_*.cpp) and their look-up
(coder.hpp:20-36).

A table is kept as one number, entry `i` in bits `bits * i ...`, so that the kernel can evaluate statements about whole
tables. Code points take 20 bits; the mark 4294967295 of a missing entry becomes `0xFFFFF`. Pointers take 16 bits.
-/
namespace Verif.Model.Table

/-- An array of `size` entries of `bits` bits. -/
structure Table where
  bits : Nat
  size : Nat
  data : Nat

/-- Rows of `w` bits, first row lowest. -/
def packTo (w : Nat) : List Nat → Nat → Nat → Nat
  | [], _, acc => acc
  | r :: rs, sh, acc => packTo w rs (sh + w) (acc + r <<< sh)

def pack (w : Nat) (rows : List Nat) : Nat := packTo w rows 0 0

/-- `index[i]`. -/
def Table.get (t : Table) (i : Nat) : Nat := (t.data >>> (t.bits * i)) % 2 ^ t.bits

/-- `get_index_code_point` (coder.hpp:20-27); the argument is a `uint16_t`. -/
def codePoint (t : Table) (pointer : Nat) : Option Nat :=
  if t.size ≤ pointer % 65536 then none
  else
    let cp := t.get (pointer % 65536)
    if cp = 0xFFFFF then none else some cp

/-- `std::lower_bound` (libstdc++ `__lower_bound`): `first` and the length of the range left. At most `fuel` rounds; a
range of less than `2 ^ fuel` entries needs no more. -/
def lowerBound (t : Table) (v : Nat) : Nat → Nat → Nat → Nat
  | 0, first, _ => first
  | fuel + 1, first, len =>
    if 0 < len then
      let half := len >>> 1
      if t.get (first + half) < v then lowerBound t v fuel (first + half + 1) (len - half - 1)
      else lowerBound t v fuel first half
    else first

/-- `get_index_pointer` (29-36). -/
def pointer (t0 t1 : Table) (cp : Nat) : Option Nat :=
  let it := lowerBound t0 cp 32 0 t0.size
  if it ≠ t0.size ∧ t0.get it = cp then some (t1.get it) else none

/-- `multimap::lower_bound(k)` and the step back of the gb18030 look-ups (45-53, 71-79): the entry with the greatest key
not above `k`, as long as some key is not below `k`. `none` = `assert(false)` at the end of the map, or a step back from
its beginning. -/
def rangeOf (k : Nat) : Option (Nat × Nat) → List (Nat × Nat) → Option (Nat × Nat)
  | _, [] => none
  | prev, e :: es => if e.1 < k then rangeOf k (some e) es else if e.1 = k then some e else prev

end Verif.Model.Table
