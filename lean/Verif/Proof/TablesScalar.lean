import Verif.Proof.Tables
import Verif.Spec.Unicode
import Verif.Model.Tables.Big5
import Verif.Model.Tables.EucKr
import Verif.Model.Tables.Gb18030
import Verif.Model.Tables.Jis
import Verif.Model.Tables.Single
/- The tables hold scalar values only. -/
namespace Verif.Proof.Tables
open Verif.Model.Table Verif.Model.Tables Verif.Spec

/-- Every code point of the table is a scalar value. -/
def Scalars (t : Table) : Prop := ∀ p cp, codePoint t p = some cp → IsScalar cp

def scalarAt (t : Table) (k : Nat) : Bool := Nat.blt (t.get k) 0xD800 || Nat.ble 0xE000 (t.get k)

theorem scalars_of {t : Table} {d : Nat} (h : allFrom (fun k => Nat.ble t.size k || scalarAt t k) d 0 = true)
    (hd : t.size ≤ 2 ^ d) (hb : t.bits = 20) : Scalars t := by
  intro p cp hp
  obtain ⟨h1, h2, _⟩ := codePoint_some hp
  have h3 := below h hd _ h1
  have h4 : t.get (p % 65536) < 2 ^ 20 := by unfold Table.get; rw [hb]; exact Nat.mod_lt _ (by decide)
  rw [h2] at h4
  unfold scalarAt at h3
  rw [h2, Bool.or_eq_true] at h3
  rcases h3 with h3 | h3
  · exact Or.inl (by simpa [Nat.blt_eq] using h3)
  · exact Or.inr ⟨Nat.le_of_ble_eq_true h3, by omega⟩

theorem scalars_cpBig5 : Scalars cpBig5 := scalars_of (d := 15) (by decide +kernel) (by decide) rfl
theorem scalars_cpEucKr : Scalars cpEucKr := scalars_of (d := 15) (by decide +kernel) (by decide) rfl
theorem scalars_cpGb18030 : Scalars cpGb18030 := scalars_of (d := 15) (by decide +kernel) (by decide) rfl
theorem scalars_cpJis0208 : Scalars cpJis0208 := scalars_of (d := 14) (by decide +kernel) (by decide) rfl
theorem scalars_cpJis0212 : Scalars cpJis0212 := scalars_of (d := 14) (by decide +kernel) (by decide) rfl
theorem scalars_cpIbm866 : Scalars cpIbm866 := scalars_of (d := 7) (by decide +kernel) (by decide) rfl
theorem scalars_cpIso88592 : Scalars cpIso88592 := scalars_of (d := 7) (by decide +kernel) (by decide) rfl
theorem scalars_cpIso88593 : Scalars cpIso88593 := scalars_of (d := 7) (by decide +kernel) (by decide) rfl
theorem scalars_cpIso88594 : Scalars cpIso88594 := scalars_of (d := 7) (by decide +kernel) (by decide) rfl
theorem scalars_cpIso88595 : Scalars cpIso88595 := scalars_of (d := 7) (by decide +kernel) (by decide) rfl
theorem scalars_cpIso88596 : Scalars cpIso88596 := scalars_of (d := 7) (by decide +kernel) (by decide) rfl
theorem scalars_cpIso88597 : Scalars cpIso88597 := scalars_of (d := 7) (by decide +kernel) (by decide) rfl
theorem scalars_cpIso88598 : Scalars cpIso88598 := scalars_of (d := 7) (by decide +kernel) (by decide) rfl
theorem scalars_cpIso885910 : Scalars cpIso885910 := scalars_of (d := 7) (by decide +kernel) (by decide) rfl
theorem scalars_cpIso885913 : Scalars cpIso885913 := scalars_of (d := 7) (by decide +kernel) (by decide) rfl
theorem scalars_cpIso885914 : Scalars cpIso885914 := scalars_of (d := 7) (by decide +kernel) (by decide) rfl
theorem scalars_cpIso885915 : Scalars cpIso885915 := scalars_of (d := 7) (by decide +kernel) (by decide) rfl
theorem scalars_cpIso885916 : Scalars cpIso885916 := scalars_of (d := 7) (by decide +kernel) (by decide) rfl
theorem scalars_cpKoi8R : Scalars cpKoi8R := scalars_of (d := 7) (by decide +kernel) (by decide) rfl
theorem scalars_cpKoi8U : Scalars cpKoi8U := scalars_of (d := 7) (by decide +kernel) (by decide) rfl
theorem scalars_cpMacintosh : Scalars cpMacintosh := scalars_of (d := 7) (by decide +kernel) (by decide) rfl
theorem scalars_cpWindows874 : Scalars cpWindows874 := scalars_of (d := 7) (by decide +kernel) (by decide) rfl
theorem scalars_cpWindows1250 : Scalars cpWindows1250 := scalars_of (d := 7) (by decide +kernel) (by decide) rfl
theorem scalars_cpWindows1251 : Scalars cpWindows1251 := scalars_of (d := 7) (by decide +kernel) (by decide) rfl
theorem scalars_cpWindows1252 : Scalars cpWindows1252 := scalars_of (d := 7) (by decide +kernel) (by decide) rfl
theorem scalars_cpWindows1253 : Scalars cpWindows1253 := scalars_of (d := 7) (by decide +kernel) (by decide) rfl
theorem scalars_cpWindows1254 : Scalars cpWindows1254 := scalars_of (d := 7) (by decide +kernel) (by decide) rfl
theorem scalars_cpWindows1255 : Scalars cpWindows1255 := scalars_of (d := 7) (by decide +kernel) (by decide) rfl
theorem scalars_cpWindows1256 : Scalars cpWindows1256 := scalars_of (d := 7) (by decide +kernel) (by decide) rfl
theorem scalars_cpWindows1257 : Scalars cpWindows1257 := scalars_of (d := 7) (by decide +kernel) (by decide) rfl
theorem scalars_cpWindows1258 : Scalars cpWindows1258 := scalars_of (d := 7) (by decide +kernel) (by decide) rfl
theorem scalars_cpXMacCyrillic : Scalars cpXMacCyrillic := scalars_of (d := 7) (by decide +kernel) (by decide) rfl

end Verif.Proof.Tables
