import Verif.Spec.Multibyte
/-
Independent specification of gb18030 and GBK (Encoding Standard, "Legacy multi-byte Chinese (simplified) encodings"), as a
reading of byte sequences from left to right that knows no decoder states. The two indexes are parameters.
-/
namespace Verif.Spec.Gb18030
open Verif.Spec.Multibyte

/-- "Index gb18030 ranges code point": the code point that lies as far behind that of the last entry not behind `p` as `p`
lies behind the entry. -/
def ranged (table : List (Nat × Nat)) (p : Nat) : Option Nat :=
  if (39419 < p ∧ p < 189000) ∨ 1237575 < p then none
  else if p = 7457 then some 0xE7C7
  else (table.filter fun e => decide (e.1 ≤ p)).getLast?.map fun e => e.2 + (p - e.1)

/-- The pointer of a four-byte sequence. -/
def pointer4 (a b c d : Nat) : Nat := (((a - 0x81) * 10 + (b - 0x30)) * 126 + (c - 0x81)) * 10 + (d - 0x30)

/-- What a byte sequence says: code points, and one `none` for each error. A sequence that breaks off is one error and takes
its first byte only; two bytes that stand for nothing are one error and take both, unless the second is ASCII; a four-byte
sequence that stands for nothing is one error and takes all four. What is cut off by the end is one error. -/
def gbReads (index : Nat → Option Nat) (table : List (Nat × Nat)) : List Nat → List (Option Nat)
  | [] => []
  | a :: r =>
    if a ≤ 0x7F then some a :: gbReads index table r
    else if a = 0x80 then some 0x20AC :: gbReads index table r
    else if a = 0xFF then none :: gbReads index table r
    else match r with
      | [] => [none]
      | b :: r1 =>
        if within 0x30 0x39 b then
          match r1 with
          | [] => [none]
          | c :: r2 =>
            if within 0x81 0xFE c then
              match r2 with
              | [] => [none]
              | d :: r3 =>
                if within 0x30 0x39 d then ranged table (pointer4 a b c d) :: gbReads index table r3
                else none :: gbReads index table (b :: c :: d :: r3)
            else none :: gbReads index table (b :: c :: r2)
        else match (cell 190 (place 0x81 0xFE a) (place2 0x40 0x7E 0x80 0xFE b)).bind index with
          | some cp => some cp :: gbReads index table r1
          | none => none :: (if b ≤ 0x7F then gbReads index table (b :: r1) else gbReads index table r1)
termination_by b => b.length

end Verif.Spec.Gb18030
