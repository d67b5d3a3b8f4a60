import Verif.Proof.Tables
import Verif.Model.Tables.Jis
namespace Verif.Proof.Tables
open Verif.Model.Table Verif.Model.Tables

theorem agree_jis : Agree cpJis0208 ptr0Jis0208 ptr1Jis0208 :=
  agree_of (d := 13) (by decide +kernel) (by decide) (by decide)

theorem ascends_jis : Ascends ptr0Jis0208 := ascends_of (d := 13) (by decide +kernel) (by decide)

def bitsJis : Nat := bitsFrom ptr0Jis0208 13 0

theorem covers_jis : Covers cpJis0208 ptr0Jis0208 ptr1Jis0208 :=
  covers_of (d := 14) (b := bitsJis) rfl ascends_jis (by decide) (by decide +kernel) (by decide)

/-- The Shift_JIS tables are the JIS X 0208 tables. -/
theorem sjis0_eq : ptr0ShiftJIS = ptr0Jis0208 := by
  have : ptr0ShiftJISData = ptr0Jis0208Data := by decide +kernel
  unfold ptr0ShiftJIS ptr0Jis0208; rw [this]

theorem sjis1_eq : ptr1ShiftJIS = ptr1Jis0208 := by
  have : ptr1ShiftJISData = ptr1Jis0208Data := by decide +kernel
  unfold ptr1ShiftJIS ptr1Jis0208; rw [this]

/-- Every pointer the encoders use lies in the first 94 rows. -/
theorem jis_rows {k : Nat} (hk : k < ptr0Jis0208.size) : ptr1Jis0208.get k < 8836 := by
  have := below (f := fun k => Nat.blt (ptr1Jis0208.get k) 8836) (n := ptr0Jis0208.size) (d := 13)
    (by decide +kernel) (by decide) k hk
  simpa [Nat.blt_eq] using this

theorem jis_pointer {cp p : Nat} (h : Verif.Model.Table.pointer ptr0Jis0208 ptr1Jis0208 cp = some p) :
    codePoint cpJis0208 p = some cp ∧ p < 8836 := by
  obtain ⟨k, hk, _, h1⟩ := pointer_entry h
  exact ⟨(agree_jis.pointer h).1, h1 ▸ jis_rows hk⟩

end Verif.Proof.Tables
