import Verif.Model.Labels
import Verif.Spec.Labels
import Verif.Props.Infra
import Mathlib.Tactic.ByContra
/- Property C41: labels of encodings. -/
namespace Verif.Props.Labels
open Verif.Props.Unicode Verif.Model.Infra Verif.Model.Legacy Verif.Model.Labels Verif.Spec Verif.Spec.Infra Verif.Props.Infra
open Verif.Spec.Labels (codes labels)

theorem form32 (s : List Nat) : formOf .c32 s = s := rfl

theorem trim_scalar {s t : List Nat} (h : IsTrim s t) (hs : ∀ c ∈ s, IsScalar c) : ∀ c ∈ t, IsScalar c := by
  obtain ⟨l, r, rfl, _⟩ := h
  intro c hc
  exact hs c (by simp [hc])

/-- Look-up is look-up of the trimmed lowercase label. -/
theorem name_eq (s : List Nat) (hs : ∀ c ∈ s, IsScalar c) (hw : s = [] ∨ ∃ c ∈ s, ¬ IsWs c) :
    ∃ t, IsTrim s t ∧ getEncodingName s = some (find (t.map lower) labelMap) := by
  obtain ⟨t, h1, h2⟩ := C28_strip_partial .c32 .c32 s hs hw
  rw [form32, form32] at h2
  have h3 := C32_lowercase .c32 .c32 t (trim_scalar h1 hs)
  rw [form32, form32] at h3
  exact ⟨t, h1, by unfold getEncodingName; rw [h2]; dsimp only; rw [h3]⟩

/-- C41, as stated: a name's label is a label of that name. -/
def C41_statement : Prop := ∀ e : Enc, getEncodingName (getEncodingLabel e) = some (some e)

theorem C41_wrong_label : getEncodingName (getEncodingLabel .ISO_8859_15) = some (some .ISO_8859_14) := by decide +kernel

theorem C41_statement_false : ¬ C41_statement := by
  intro h
  have := h .ISO_8859_15
  rw [C41_wrong_label] at this
  exact absurd this (by decide)

/-- C41 for every other name. Missing: ISO-8859-15, for which it is false. -/
theorem C41_partial (e : Enc) (h : e ≠ .ISO_8859_15) : getEncodingName (getEncodingLabel e) = some (some e) := by
  cases e with
  | ISO_8859_15 => exact absurd rfl h
  | _ => decide +kernel

example : Enc.Shift_JIS ≠ .ISO_8859_15 := by decide

/-- C41. Look-up ignores whitespace around the label and ASCII case, for every label but those of whitespace only. -/
theorem C41_padding (s t l r : List Nat) (hs : ∀ c ∈ s, IsScalar c) (ht : ∀ c ∈ t, IsScalar c)
    (hl : ∀ c ∈ l, IsWs c) (hr : ∀ c ∈ r, IsWs c) (hn : s ≠ []) (hh : ∀ c, s.head? = some c → ¬ IsWs c)
    (hg : ∀ c, s.getLast? = some c → ¬ IsWs c) (hc : s.map lower = t.map lower) :
    getEncodingName (l ++ s ++ r) = getEncodingName t := by
  have wsc : ∀ c, IsWs c → IsScalar c := by
    intro c h; unfold IsWs at h; unfold IsScalar; simp at h; omega
  have wlow : ∀ c d, lower c = lower d → IsWs c → IsWs d := by
    intro c d h hw
    unfold IsWs at *
    unfold lower at h
    simp at hw ⊢
    split at h <;> split at h <;> omega
  have nhead : ∀ c, t.head? = some c → ¬ IsWs c := by
    intro c hcd hw
    have e : (s.map lower).head? = some (lower c) := by rw [hc]; simp [hcd]
    rw [List.head?_map] at e
    cases hsd : s.head? with
    | none => rw [hsd] at e; simp at e
    | some d =>
      rw [hsd] at e
      simp only [Option.map_some, Option.some.injEq] at e
      exact hh d hsd (wlow c d e.symm hw)
  have nlast : ∀ c, t.getLast? = some c → ¬ IsWs c := by
    intro c hcd hw
    have e : (s.map lower).getLast? = some (lower c) := by rw [hc]; simp [hcd]
    rw [List.getLast?_map] at e
    cases hsd : s.getLast? with
    | none => rw [hsd] at e; simp at e
    | some d =>
      rw [hsd] at e
      simp only [Option.map_some, Option.some.injEq] at e
      exact hg d hsd (wlow c d e.symm hw)
  have tn : t ≠ [] := by
    rintro rfl
    simp at hc; exact hn hc
  obtain ⟨c, hcs⟩ : ∃ c, s.head? = some c := by
    cases s with
    | nil => exact absurd rfl hn
    | cons c s => exact ⟨c, rfl⟩
  have hsc : ∀ x ∈ l ++ s ++ r, IsScalar x := by
    intro x hx
    simp only [List.mem_append] at hx
    rcases hx with (hx | hx) | hx
    · exact wsc x (hl x hx)
    · exact hs x hx
    · exact wsc x (hr x hx)
  obtain ⟨u, h1, h2⟩ := name_eq (l ++ s ++ r) hsc
    (Or.inr ⟨c, by simp [List.mem_of_head? hcs], hh c hcs⟩)
  have e1 : u = s := C28_trim_unique _ _ _ h1 ⟨l, r, rfl, hl, hr, hh, hg, fun e => absurd e hn⟩
  obtain ⟨d, hdt⟩ : ∃ c, t.head? = some c := by
    cases t with
    | nil => exact absurd rfl tn
    | cons c t => exact ⟨c, rfl⟩
  obtain ⟨v, h3, h4⟩ := name_eq t ht (Or.inr ⟨d, List.mem_of_head? hdt, nhead d hdt⟩)
  have e2 : v = t := C28_trim_unique _ _ _ h3
    ⟨[], [], by simp, by simp, by simp, nhead, nlast, fun _ => rfl⟩
  rw [h2, h4, e1, e2, hc]

/- `" \tUTF-8\n"` and `"utf-8"`. -/
example : getEncodingName ([0x20, 9] ++ [0x55, 0x54, 0x46, 0x2D, 0x38] ++ [10]) = some (some .UTF_8) := by decide +kernel
example : [0x55, 0x54, 0x46, 0x2D, 0x38].map lower = (getEncodingLabel .UTF_8).map lower := by decide

theorem find_mem {label : List Nat} {e : Enc} {m : List (List Nat × Enc)} (h : find label m = some e) : (label, e) ∈ m := by
  induction m with
  | nil => simp [find] at h
  | cons x m ih =>
    obtain ⟨l, e'⟩ := x
    rw [find] at h
    split at h
    · rename_i hl; cases h; simp [hl]
    · simp [ih h]

theorem map_all : ∀ x ∈ labelMap, find x.1 labelMap = some x.2 := by
  have : (labelMap.all fun x => decide (find x.1 labelMap = some x.2)) = true := by decide +kernel
  intro x hx
  exact of_decide_eq_true (List.all_eq_true.mp this x hx)

theorem map_std : ∀ x ∈ labelMap, ∃ l ∈ labels x.2, codes l = x.1 := by
  have : (labelMap.all fun x => (labels x.2).any fun l => decide (codes l = x.1)) = true := by decide +kernel
  intro x hx
  have := List.all_eq_true.mp this x hx
  rw [List.any_eq_true] at this
  obtain ⟨l, h1, h2⟩ := this
  exact ⟨l, h1, of_decide_eq_true h2⟩

theorem std_map (e : Enc) : ∀ l ∈ labels e, (codes l, e) ∈ labelMap := by
  have : ((labels e).all fun l => decide (find (codes l) labelMap = some e)) = true := by
    cases e <;> decide +kernel
  intro l hl
  exact find_mem (of_decide_eq_true (List.all_eq_true.mp this l hl))

/-- C41. The names found are those the standard gives, by the trimmed lowercase label: each of its labels is found and
nothing else is. -/
theorem C41_standard (s : List Nat) (hs : ∀ c ∈ s, IsScalar c) (hw : s = [] ∨ ∃ c ∈ s, ¬ IsWs c) (e : Enc) :
    getEncodingName s = some (some e) ↔ ∃ t, IsTrim s t ∧ ∃ l ∈ labels e, codes l = t.map lower := by
  obtain ⟨t, h1, h2⟩ := name_eq s hs hw
  rw [h2]
  constructor
  · intro h
    simp only [Option.some.injEq] at h
    obtain ⟨l, h3, h4⟩ := map_std _ (find_mem h)
    exact ⟨t, h1, l, h3, h4⟩
  · rintro ⟨u, h3, l, h4, h5⟩
    obtain rfl := C28_trim_unique _ _ _ h1 h3
    rw [← h5, map_all _ (std_map e l h4)]

example : IsTrim (codes " Latin1\n") (codes "Latin1") :=
  ⟨codes " ", codes "\n", by decide, by decide, by decide, by decide, by decide, by decide⟩
example : "latin1" ∈ labels .windows_1252 ∧ codes "latin1" = (codes "Latin1").map lower := by decide

/-- A label of whitespace only is undefined behaviour. -/
theorem C41_whitespace_ub (s : List Nat) (hs : ∀ c ∈ s, IsWs c) (hn : s ≠ []) : getEncodingName s = none := by
  have := C28_all_whitespace_ub .c32 .c32 s hs hn
  rw [form32] at this
  unfold getEncodingName
  rw [this]

example : ∀ c ∈ [0x20, 0x9], IsWs c := by decide

end Verif.Props.Labels
