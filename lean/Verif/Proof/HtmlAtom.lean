import Verif.Spec.HtmlAtom
import Mathlib.Tactic.ByContra
/- Lemmas about HTML atoms: the tables are inverse to each other. -/
namespace Verif.Proof.HtmlAtom
open Verif.Model.Unicode Verif.Model.HtmlAtom Verif.Model.Tables.HtmlAtom Verif.Spec Verif.Spec.HtmlAtom Verif.Props.Unicode

/-- Strings in the order of `std::sort`. -/
def less : List Nat → List Nat → Bool
  | _, [] => false
  | [], _ :: _ => true
  | a :: s, b :: t => decide (a < b) || (a == b && less s t)

def sorted : List (List Nat) → Bool
  | a :: b :: r => less a b && sorted (b :: r)
  | _ => true

theorem less_irrefl (s : List Nat) : less s s = false := by induction s <;> simp_all [less]

theorem less_trans (a b c : List Nat) (h : less a b = true) (h' : less b c = true) : less a c = true := by
  induction a generalizing b c with
  | nil => cases b <;> cases c <;> simp_all [less]
  | cons x a ih =>
    cases b with
    | nil => simp [less] at h
    | cons y b =>
      cases c with
      | nil => simp [less] at h'
      | cons z c =>
        simp only [less, Bool.or_eq_true, decide_eq_true_eq, Bool.and_eq_true, beq_iff_eq] at *
        rcases h with h | ⟨rfl, h⟩ <;> rcases h' with h' | ⟨rfl, h'⟩
        · left; omega
        · left; omega
        · left; omega
        · right; exact ⟨rfl, ih _ _ h h'⟩

theorem sorted_all (a : List Nat) (l : List (List Nat)) (h : sorted (a :: l) = true) : ∀ b ∈ l, less a b = true := by
  induction l generalizing a with
  | nil => simp
  | cons b l ih =>
    simp only [sorted, Bool.and_eq_true] at h
    intro c hc
    rcases List.mem_cons.mp hc with rfl | hc
    · exact h.1
    · exact less_trans _ _ _ h.1 (ih b h.2 c hc)

theorem sorted_nodup (l : List (List Nat)) (h : sorted l = true) : l.Nodup := by
  induction l with
  | nil => simp
  | cons a l ih =>
    rw [List.nodup_cons]
    refine ⟨?_, ih ?_⟩
    · intro hm
      have := sorted_all a l h a hm
      rw [less_irrefl] at this; cases this
    · cases l with
      | nil => rfl
      | cons b l => simp only [sorted, Bool.and_eq_true] at h; exact h.2

theorem nodup (k : Kind) : (names k).Nodup := by
  cases k
  · decide +kernel
  · exact sorted_nodup _ (by decide +kernel)
  · exact sorted_nodup _ (by decide +kernel)

theorem head (k : Kind) : ∃ l, names k = [] :: l ∧ map k = l.zipIdx 1 := by
  cases k
  · exact ⟨nsNames.tail, by decide +kernel, by decide +kernel⟩
  · exact ⟨tagNames.tail, by decide +kernel, by decide +kernel⟩
  · exact ⟨attrNames.tail, by decide +kernel, by decide +kernel⟩

theorem find_mem (s : List Nat) (l : List (List Nat × Nat)) (i : Nat) (h : find s l = some i) : (s, i) ∈ l := by
  induction l with
  | nil => simp [find] at h
  | cons p r ih =>
    obtain ⟨t, j⟩ := p
    simp only [find] at h
    split at h
    · rename_i e
      injection h with h
      subst e h
      exact List.mem_cons_self ..
    · exact List.mem_cons_of_mem _ (ih h)

theorem find_none (s : List Nat) (l : List (List Nat × Nat)) (h : find s l = none) (i : Nat) : (s, i) ∉ l := by
  induction l with
  | nil => simp
  | cons p r ih =>
    obtain ⟨t, j⟩ := p
    simp only [find] at h
    split at h
    · cases h
    · rename_i e
      intro hm
      rcases List.mem_cons.mp hm with hm | hm
      · injection hm with a b; exact e a
      · exact ih h hm

/-- Look-up in the map is the inverse of look-up in the table. -/
theorem find_iff (k : Kind) (s : List Nat) (i : Nat) : find s (map k) = some i ↔ i ≠ 0 ∧ (names k)[i]? = some s := by
  obtain ⟨l, h1, h2⟩ := head k
  have hd := nodup k
  rw [h1] at hd ⊢
  have key : ∀ j, (s, j) ∈ map k ↔ j ≠ 0 ∧ ([] :: l)[j]? = some s := by
    intro j
    rw [h2, List.mk_mem_zipIdx_iff_le_and_getElem?_sub]
    cases j with
    | zero => simp
    | succ j => simp
  constructor
  · intro h
    exact (key i).mp (find_mem s _ i h)
  · intro h
    have hm := (key i).mpr h
    cases hf : find s (map k) with
    | none => exact absurd hm (find_none s _ hf i)
    | some j =>
      have hj := (key j).mp (find_mem s _ j hf)
      have hlt : j < ([] :: l).length := by
        by_contra hge
        rw [List.getElem?_eq_none (by omega)] at hj
        cases hj.2
      rw [(List.getElem?_inj hlt hd).mp (hj.2.trans h.2.symm)]

theorem zero (k : Kind) : (names k)[0]? = some [] := by
  obtain ⟨l, h1, _⟩ := head k
  rw [h1]; rfl

theorem nonempty (k : Kind) (i : Nat) (hi : i ≠ 0) : (names k)[i]? ≠ some [] := by
  intro h
  have h0 := zero k
  have hd := nodup k
  have hlt : i < (names k).length := by
    by_contra hge
    rw [List.getElem?_eq_none (by omega)] at h
    cases h
  exact hi ((List.getElem?_inj hlt hd).mp (h.trans h0.symm))

/-- Every string of the tables is ASCII. -/
theorem ascii (k : Kind) (i : Nat) (s : List Nat) (h : (names k)[i]? = some s) : ∀ c ∈ s, IsScalar c := by
  have hm := List.mem_of_getElem? h
  have : ∀ t ∈ names k, ∀ c ∈ t, c < 128 := by
    cases k
    · decide +kernel
    · decide +kernel
    · decide +kernel
  intro c hc
  have := this s hm c hc
  unfold IsScalar; omega

/-- Every enumerator is in the table, under the string that it is named after. -/
theorem named (k : Kind) : ∀ p ∈ enumerators k, p.2 ≠ 0 ∧ ∃ s, (names k)[p.2]? = some s ∧ NamedAfter k p.1 s := by
  cases k
  · have : ∀ p ∈ nsEnum, p.2 ≠ 0 ∧ ((nsNames[p.2]?).any fun s => namespaces.any fun q => p.1 == codes q.1 && s == codes q.2) = true := by
      decide +kernel
    intro p hp
    obtain ⟨a, b⟩ := this p hp
    refine ⟨a, ?_⟩
    rw [Option.any_eq_true] at b
    obtain ⟨s, hs, b⟩ := b
    refine ⟨s, hs, ?_⟩
    rw [List.any_eq_true] at b
    obtain ⟨q, hq, b⟩ := b
    simp only [Bool.and_eq_true, beq_iff_eq] at b
    exact ⟨q, hq, b⟩
  · have : ∀ p ∈ tagEnum, p.2 ≠ 0 ∧ ((tagNames[p.2]?).any fun s => p.1 == identifier s) = true := by decide +kernel
    intro p hp
    obtain ⟨a, b⟩ := this p hp
    refine ⟨a, ?_⟩
    rw [Option.any_eq_true] at b
    obtain ⟨s, hs, b⟩ := b
    exact ⟨s, hs, eq_of_beq b⟩
  · have : ∀ p ∈ attrEnum, p.2 ≠ 0 ∧ ((attrNames[p.2]?).any fun s => p.1 == identifier s) = true := by decide +kernel
    intro p hp
    obtain ⟨a, b⟩ := this p hp
    refine ⟨a, ?_⟩
    rw [Option.any_eq_true] at b
    obtain ⟨s, hs, b⟩ := b
    exact ⟨s, hs, eq_of_beq b⟩

end Verif.Proof.HtmlAtom
