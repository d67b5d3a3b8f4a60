import Verif.Proof.HtmlSerialLoop
import Mathlib.Tactic.ByContra
/- Lemmas about reading back what the HTML serializer writes. -/
namespace Verif.Proof.HtmlSerial
open Verif.Model.Unicode Verif.Spec Verif.Spec.HtmlAtom Verif.Props.Unicode
open Verif.Spec.HtmlSerial hiding Attr

/-! ### Plain trees -/

theorem attrName'_eq (a : Spec.HtmlSerial.Attr) (h : KnownNs a) : attrName' a = attrName a := by
  have hn : Model.HtmlAtom.names .ns = [[], htmlNs, mathNs, svgNs, xlinkNs, xmlNs, xmlnsNs] := by decide +kernel
  unfold attrName'
  by_cases hk : a.ns ∈ Model.HtmlAtom.names .ns
  · rw [if_pos hk]
  · rw [if_neg hk]
    rw [hn] at hk
    rcases h with h | h
    · simp only [List.mem_cons, not_or] at hk
      obtain ⟨k0, k1, k2, k3, k4, k5, k6, _⟩ := hk
      unfold attrName
      rw [if_neg k0, if_neg k5, if_neg (fun x : a.ns = xmlnsNs ∧ _ => k6 x.1), if_neg k6, if_neg k4]
      unfold qualified
      rw [if_pos h]
    · exfalso
      exact hk ((show ∀ x ∈ [[], xmlNs, xmlnsNs, xlinkNs, htmlNs, mathNs, svgNs], x ∈ [[], htmlNs, mathNs, svgNs, xlinkNs, xmlNs, xmlnsNs] by decide +kernel) _ h)

theorem attrsOut'_eq (l : List Spec.HtmlSerial.Attr) (h : ∀ a ∈ l, KnownNs a) : attrsOut' l = attrsOut l := by
  unfold attrsOut' attrsOut
  induction l with
  | nil => rfl
  | cons a l ih =>
    rw [List.flatMap_cons, List.flatMap_cons, ih (fun x hx => h x (by simp [hx])), attrName'_eq a (h a (by simp))]

mutual
theorem out_write (parent : Data) : ∀ D : Dom, Plain D → out parent D = write parent D
  | .mk (.element ns pre name attrs) ks, h => by
    unfold Plain at h
    obtain ⟨h1, h2, h3⟩ := h
    have e := outs_writes (.element ns pre name attrs) ks h3
    rw [out, write, if_pos (show isElem (.element ns pre name attrs) = true from rfl), e]
    unfold here startOut endOut
    dsimp only
    rw [attrsOut'_eq attrs h2]
    by_cases c : HtmlElement voidNames (.element ns pre name attrs)
    · rw [if_pos c, if_pos c, h1 c, writes]
      simp only [List.append_assoc, List.append_nil]
    · rw [if_neg c, if_neg c]
      simp only [List.append_assoc]
  | .mk (.text s) ks, _ => by rw [out, write]; simp [here, isElem]
  | .mk (.comment s) ks, _ => by rw [out, write]; simp [here, isElem]
  | .mk (.pi s t) ks, _ => by rw [out, write]; simp [here, isElem]
  | .mk (.doctype s) ks, _ => by rw [out, write]; simp [here, isElem]
  | .mk .other ks, _ => by rw [out, write]; simp [here, isElem]

theorem outs_writes (parent : Data) : ∀ k : List Dom, Plains k → outs parent k = writes parent k
  | [], _ => by rw [outs, writes]
  | D :: k, h => by
    unfold Plains at h
    rw [outs, writes, out_write parent D h.1, outs_writes parent k h.2]
end

/-! ### Escaping -/

theorem esc_cases (attr : Bool) (c : Nat) :
    (c = 0x26 ∧ esc attr c = codes "&amp;") ∨ (c = 0xA0 ∧ esc attr c = codes "&nbsp;") ∨
    (c = 0x22 ∧ esc attr c = codes "&quot;") ∨ (c = 0x3C ∧ esc attr c = codes "&lt;") ∨
    (c = 0x3E ∧ esc attr c = codes "&gt;") ∨
    (esc attr c = [c] ∧ c ≠ 0x26 ∧ c ≠ 0xA0 ∧ (attr = true → c ≠ 0x22) ∧ (attr = false → c ≠ 0x3C ∧ c ≠ 0x3E)) := by
  unfold esc
  by_cases c1 : c = 0x26
  · simp [c1]
  by_cases c2 : c = 0xA0
  · simp [c2]
  by_cases c3 : c = 0x22
  · cases attr <;> simp [c3]
  by_cases c4 : c = 0x3C
  · cases attr <;> simp [c4]
  by_cases c5 : c = 0x3E
  · cases attr <;> simp [c5]
  simp [c1, c2, c3, c4, c5]

theorem escape_decodes (attr : Bool) (s : List Nat) : Decodes (escape attr s) s := by
  rw [escape_esc]
  induction s with
  | nil => exact .nil
  | cons c s ih =>
    rw [List.flatMap_cons]
    rcases esc_cases attr c with ⟨rfl, h⟩ | ⟨rfl, h⟩ | ⟨rfl, h⟩ | ⟨rfl, h⟩ | ⟨rfl, h⟩ | ⟨h, h1, _⟩ <;> rw [h]
    · exact .amp _ _ ih
    · exact .nbsp _ _ ih
    · exact .quot _ _ ih
    · exact .lt _ _ ih
    · exact .gt _ _ ih
    · exact .char _ _ _ h1 ih

theorem amp_codes : codes "&amp;" = [0x26, 0x61, 0x6D, 0x70, 0x3B] := by decide +kernel
theorem nbsp_codes : codes "&nbsp;" = [0x26, 0x6E, 0x62, 0x73, 0x70, 0x3B] := by decide +kernel
theorem quot_codes : codes "&quot;" = [0x26, 0x71, 0x75, 0x6F, 0x74, 0x3B] := by decide +kernel
theorem lt_codes : codes "&lt;" = [0x26, 0x6C, 0x74, 0x3B] := by decide +kernel
theorem gt_codes : codes "&gt;" = [0x26, 0x67, 0x74, 0x3B] := by decide +kernel

theorem decodes_det (u s t : List Nat) (h : Decodes u s) (h' : Decodes u t) : s = t := by
  induction h generalizing t with
  | nil => cases h'; rfl
  | char c u s hc hd ih =>
    generalize hv : c :: u = v at h'
    cases h' with
    | nil => cases hv
    | char c' u' s' hc' hd' => injection hv with a b; subst a b; rw [ih _ hd']
    | amp u' s' hd' => rw [amp_codes] at hv; injection hv with a b; exact absurd a hc
    | nbsp u' s' hd' => rw [nbsp_codes] at hv; injection hv with a b; exact absurd a hc
    | quot u' s' hd' => rw [quot_codes] at hv; injection hv with a b; exact absurd a hc
    | lt u' s' hd' => rw [lt_codes] at hv; injection hv with a b; exact absurd a hc
    | gt u' s' hd' => rw [gt_codes] at hv; injection hv with a b; exact absurd a hc
  | amp u s hd ih =>
    generalize hv : codes "&amp;" ++ u = v at h'
    rw [amp_codes] at hv
    cases h' with
    | nil => cases hv
    | char c' u' s' hc' hd' => injection hv with a b; exact absurd a.symm hc'
    | amp u' s' hd' => rw [amp_codes] at hv; have : u = u' := by simpa using hv
                       subst this; rw [ih _ hd']
    | nbsp u' s' hd' => rw [nbsp_codes] at hv; simp at hv
    | quot u' s' hd' => rw [quot_codes] at hv; simp at hv
    | lt u' s' hd' => rw [lt_codes] at hv; simp at hv
    | gt u' s' hd' => rw [gt_codes] at hv; simp at hv
  | nbsp u s hd ih =>
    generalize hv : codes "&nbsp;" ++ u = v at h'
    rw [nbsp_codes] at hv
    cases h' with
    | nil => cases hv
    | char c' u' s' hc' hd' => injection hv with a b; exact absurd a.symm hc'
    | nbsp u' s' hd' => rw [nbsp_codes] at hv; have : u = u' := by simpa using hv
                        subst this; rw [ih _ hd']
    | amp u' s' hd' => rw [amp_codes] at hv; simp at hv
    | quot u' s' hd' => rw [quot_codes] at hv; simp at hv
    | lt u' s' hd' => rw [lt_codes] at hv; simp at hv
    | gt u' s' hd' => rw [gt_codes] at hv; simp at hv
  | quot u s hd ih =>
    generalize hv : codes "&quot;" ++ u = v at h'
    rw [quot_codes] at hv
    cases h' with
    | nil => cases hv
    | char c' u' s' hc' hd' => injection hv with a b; exact absurd a.symm hc'
    | quot u' s' hd' => rw [quot_codes] at hv; have : u = u' := by simpa using hv
                        subst this; rw [ih _ hd']
    | amp u' s' hd' => rw [amp_codes] at hv; simp at hv
    | nbsp u' s' hd' => rw [nbsp_codes] at hv; simp at hv
    | lt u' s' hd' => rw [lt_codes] at hv; simp at hv
    | gt u' s' hd' => rw [gt_codes] at hv; simp at hv
  | lt u s hd ih =>
    generalize hv : codes "&lt;" ++ u = v at h'
    rw [lt_codes] at hv
    cases h' with
    | nil => cases hv
    | char c' u' s' hc' hd' => injection hv with a b; exact absurd a.symm hc'
    | lt u' s' hd' => rw [lt_codes] at hv; have : u = u' := by simpa using hv
                      subst this; rw [ih _ hd']
    | amp u' s' hd' => rw [amp_codes] at hv; simp at hv
    | nbsp u' s' hd' => rw [nbsp_codes] at hv; simp at hv
    | quot u' s' hd' => rw [quot_codes] at hv; simp at hv
    | gt u' s' hd' => rw [gt_codes] at hv; simp at hv
  | gt u s hd ih =>
    generalize hv : codes "&gt;" ++ u = v at h'
    rw [gt_codes] at hv
    cases h' with
    | nil => cases hv
    | char c' u' s' hc' hd' => injection hv with a b; exact absurd a.symm hc'
    | gt u' s' hd' => rw [gt_codes] at hv; have : u = u' := by simpa using hv
                      subst this; rw [ih _ hd']
    | amp u' s' hd' => rw [amp_codes] at hv; simp at hv
    | nbsp u' s' hd' => rw [nbsp_codes] at hv; simp at hv
    | quot u' s' hd' => rw [quot_codes] at hv; simp at hv
    | lt u' s' hd' => rw [lt_codes] at hv; simp at hv

theorem escape_inj (attr : Bool) (s t : List Nat) (h : escape attr s = escape attr t) : s = t :=
  decodes_det _ _ _ (escape_decodes attr s) (h ▸ escape_decodes attr t)

theorem escape_no (attr : Bool) (s : List Nat) : ∀ c ∈ escape attr s, c ≠ 0xA0 ∧ (attr = true → c ≠ 0x22) ∧
    (attr = false → c ≠ 0x3C ∧ c ≠ 0x3E) := by
  rw [escape_esc]
  intro c hc
  obtain ⟨d, hd, hm⟩ := List.mem_flatMap.mp hc
  rcases esc_cases attr d with ⟨rfl, h⟩ | ⟨rfl, h⟩ | ⟨rfl, h⟩ | ⟨rfl, h⟩ | ⟨rfl, h⟩ | ⟨h, h1, h2, h3⟩ <;> rw [h] at hm
  · rw [amp_codes] at hm; clear hc; revert c; cases attr <;> decide
  · rw [nbsp_codes] at hm; clear hc; revert c; cases attr <;> decide
  · rw [quot_codes] at hm; clear hc; revert c; cases attr <;> decide
  · rw [lt_codes] at hm; clear hc; revert c; cases attr <;> decide
  · rw [gt_codes] at hm; clear hc; revert c; cases attr <;> decide
  · simp only [List.mem_singleton] at hm
    subst hm
    exact ⟨h2, h3⟩

end Verif.Proof.HtmlSerial
