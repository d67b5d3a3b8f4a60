import Verif.Proof.CssLongest
namespace Verif.Proof.CssTok
open Verif.Model.Infra Verif.Model.Unicode Verif.Model.Coder Verif.Model.Percent Verif.Model.Host Verif.Model.CssTok
open Verif.Spec Verif.Spec.Infra Verif.Spec.Percent Verif.Spec.Host Verif.Spec.CssTok
open Verif.Proof.Host4 Verif.Proof.HostParse Verif.Proof.Digits

theorem frac_complete {fr fp w : List Nat} (hf : IsFrac fr fp) (h1 : fp ≠ [] → ¬ Starts Digit w)
    (h2 : fp = [] → ¬ ∃ x t, w = 0x2E :: x :: t ∧ Digit x) : takeFraction (fr ++ w) = (fr, w) := by
  rcases hf with ⟨rfl, rfl⟩ | ⟨rfl, h3, h4⟩
  · have := h2 rfl
    unfold takeFraction
    split
    · rename_i a b r hw
      rw [List.nil_append] at hw
      rw [if_neg, hw]
      rintro ⟨rfl, hb⟩
      exact this ⟨b, r, hw, (digit_iff b).mp hb⟩
    · rfl
  · cases fp with
    | nil => exact absurd rfl h3
    | cons x fp =>
      have hx := (digit_iff x).mpr (h4 x (by simp))
      rw [List.cons_append, List.cons_append, takeFraction, if_pos ⟨rfl, hx⟩,
        digits_complete (fun c hc => h4 c (by simp [hc])) (h1 (by simp))]

theorem exp_complete' {ex b ep r : List Nat} (he : IsExp ex b ep) (h1 : ep ≠ [] → ¬ Starts Digit r) (h2 : ep = [] → ¬ HasExp r) :
    takeExponent (ex ++ r) = (ex, r) := by
  rcases he with ⟨rfl, rfl, rfl⟩ | ⟨c, hc, rfl, hb, hne, hd⟩
  · rw [List.nil_append]
    obtain ⟨e1, b, ep, e2, e3, e4⟩ := exp_sound r
    rcases e2 with ⟨e2, -, -⟩ | ⟨c, hc, e2, hb, hne, hd⟩
    · rw [e2, List.nil_append] at e1
      exact Prod.ext e2 e1.symm
    · exfalso
      cases ep with
      | nil => exact hne rfl
      | cons x ep => exact h2 rfl ⟨c, b, x, ep ++ (takeExponent r).2, hc, hb, hd x (by simp), by refine e1.trans ?_; rw [e2]; simp⟩
  · exact exp_complete hc hb hne hd (h1 hne)

theorem exp_sign {ex b ep : List Nat} (he : IsExp ex b ep) : takeSign (skipE ex) = (b, ep) := by
  rcases he with ⟨rfl, rfl, rfl⟩ | ⟨c, hc, rfl, hb, hne, hd⟩
  · rfl
  · simp only [List.cons_append, skipE, if_pos hc]
    apply sign_complete hb
    intro _
    cases ep with
    | nil => simp
    | cons x ep => have := hd x (by simp); rw [starts_cons]; unfold Signed Digit at *; omega

/-- There is one way to cut. -/
theorem parts_det {s a ip fr fp ex b ep r a' ip' fr' fp' ex' b' ep' r' : List Nat} (h : Parts s a ip fr fp ex b ep r)
    (h' : Parts s a' ip' fr' fp' ex' b' ep' r') : a = a' ∧ ip = ip' ∧ fr = fr' ∧ fp = fp' ∧ ex = ex' ∧ b = b' ∧ ep = ep' ∧ r = r' := by
  have key : ∀ {a ip fr fp ex b ep r}, Parts s a ip fr fp ex b ep r → takeSign s = (a, ip ++ (fr ++ (ex ++ r))) ∧
      takeDigits (ip ++ (fr ++ (ex ++ r))) = (ip, fr ++ (ex ++ r)) ∧ takeFraction (fr ++ (ex ++ r)) = (fr, ex ++ r) ∧
      takeExponent (ex ++ r) = (ex, r) ∧ takeSign (skipE ex) = (b, ep) ∧ fp = fr.drop 1 := by
    intro a ip fr fp ex b ep r h
    refine ⟨?_, ?_, frac_complete h.hf h.noFracDigit h.noFrac, exp_complete' h.he h.noExpDigit h.noExp, exp_sign h.he, ?_⟩
    · have hs := h.noSign
      have ht := h.text
      have e : s = a ++ (ip ++ (fr ++ (ex ++ r))) := by rw [ht]; simp
      rw [e]
      apply sign_complete h.ha
      intro ha
      have := hs ha
      rw [e, ha] at this
      exact this
    · apply digits_complete h.hi
      have := h.noInt
      rwa [List.append_assoc] at this
    · rcases h.hf with ⟨rfl, rfl⟩ | ⟨rfl, -, -⟩ <;> rfl
  obtain ⟨a1, a2, a3, a4, a5, a6⟩ := key h
  obtain ⟨b1, b2, b3, b4, b5, b6⟩ := key h'
  rw [a1] at b1
  injection b1 with c1 c2
  rw [← c2, a2] at b2
  injection b2 with c3 c4
  rw [← c4, a3] at b3
  injection b3 with c5 c6
  rw [← c6, a4] at b4
  injection b4 with c7 c8
  rw [← c7, a5] at b5
  injection b5 with c9 c10
  exact ⟨c1, c3, c5, by rw [a6, b6, c5], c7, c9, c10, c8⟩

theorem Form.parts {t a ip fr fp ex b ep : List Nat} (h : Form t a ip fr fp ex b ep) : Parts t a ip fr fp ex b ep [] := by
  have hfront := h.front
  obtain ⟨rfl, h1, h2, h3, h4, h5⟩ := h
  refine ⟨by simp, h1, h2, h3, h4, ?_, ?_, ?_, ?_, ?_, ?_⟩
  · rintro rfl
    obtain ⟨x, u, e, hx⟩ := hfront
    rw [e]
    simp only [List.nil_append, starts_cons]
    unfold Signed
    rcases hx with hx | ⟨rfl, -⟩
    · unfold Digit at hx; omega
    · omega
  · rw [List.append_nil]; exact nodigit_frac h3 (nodigit_exp h4)
  · rintro - ⟨x, t, e, hx⟩
    rw [List.append_nil] at e
    rcases h4 with ⟨rfl, -⟩ | ⟨c, hc, rfl, -⟩
    · cases e
    · simp at e; omega
  · intro _; rw [List.append_nil]; exact nodigit_exp h4
  · rintro - ⟨c, b, x, r, -, -, -, e⟩
    simp at e
  · intro _; simp

theorem number_det {t : List Nat} {q q' : ℚ} {b b' : Bool} (h : Number t q b) (h' : Number t q' b') : q = q' ∧ b = b' := by
  obtain ⟨a, ip, fr, fp, ex, e, ep, h1, rfl, rfl⟩ := number_iff.mp h
  obtain ⟨a', ip', fr', fp', ex', e', ep', h1', rfl, rfl⟩ := number_iff.mp h'
  obtain ⟨rfl, rfl, rfl, rfl, rfl, rfl, rfl, -⟩ := parts_det h1.parts h1'.parts
  exact ⟨rfl, rfl⟩

theorem numberAt_det {s r r' : List Nat} {q q' : ℚ} {b b' : Bool} (h : NumberAt s q b r) (h' : NumberAt s q' b' r') :
    q = q' ∧ b = b' ∧ r = r' := by
  obtain ⟨t, h1, h2, h3⟩ := h
  obtain ⟨t', h1', h2', h3'⟩ := h'
  have l1 := h3 _ _ _ h2' ⟨r', h1'.symm⟩
  have l2 := h3' _ _ _ h2 ⟨r, h1.symm⟩
  rw [h1] at h1'
  obtain ⟨rfl, rfl⟩ := List.append_inj h1' (by omega)
  obtain ⟨rfl, rfl⟩ := number_det h2 h2'
  exact ⟨rfl, rfl, rfl⟩

theorem large_of {t d : List Nat} (h : d <:+: t) (hd : Ds d) (hl : ¬ fromChars 10 d < 2 ^ 32) : Large t := by
  refine ⟨d, fromChars 10 d, h, numeral10.mpr ⟨?_, hd, rfl⟩, by omega⟩
  rintro rfl
  exact hl (by decide)

/-- `consume_number` takes the longest number and its value, unless a part is too large. -/
theorem number_spec {s : List Nat} (hs : StartsNumber s) : ∃ t r q b, s = t ++ r ∧ t ≠ [] ∧ Number t q b ∧ Longest s t ∧
    ((∃ v, consumeNumber s = some (r, v, b) ∧ numValue v = q) ∨ (consumeNumber s = none ∧ Large t)) := by
  obtain ⟨a, ip, fr, fp, ex, b, ep, r, hP, hc⟩ := parts s
  have hL : ∀ t' q b, Number t' q b → t' <+: s → t'.length ≤ (a ++ ip ++ fr ++ ex).length := by
    intro t' q b' h hp
    obtain ⟨a', ip', fr', fp', ex', e', ep', h1', -, -⟩ := number_iff.mp h
    exact longest hP h1' hp
  have hsome : ip ≠ [] ∨ fp ≠ [] := by
    by_contra hn
    rw [not_or, not_not, not_not] at hn
    obtain ⟨rfl, rfl⟩ := hn
    obtain ⟨t, q, i, h, w, hw⟩ := hs
    obtain ⟨a', ip', fr', fp', ex', e', ep', hF, -, -⟩ := number_iff.mp h
    have hfr : fr = [] := by
      rcases hP.hf with ⟨h, -⟩ | ⟨-, h, -⟩
      · exact h
      · exact absurd rfl h
    subst hfr
    obtain ⟨x, u, rfl, hx⟩ := hF.front
    have htext := hP.text
    have n1 := hP.noSign
    have n2 := hP.noInt
    have n3 := hP.noFrac rfl
    rw [← hw] at htext n1
    simp only [List.append_nil, List.nil_append] at htext n2
    have ha : a = a' := by
      have hx' : ¬ Signed x := by
        unfold Signed
        rcases hx with hx | ⟨rfl, -⟩
        · unfold Digit at hx; omega
        · omega
      rcases hF.ha with rfl | rfl | rfl
      · rcases hP.ha with rfl | rfl | rfl
        · rfl
        · simp at htext; exact absurd (.inl htext.1) hx'
        · simp at htext; exact absurd (.inr htext.1) hx'
      · rcases hP.ha with rfl | rfl | rfl
        · have := n1 rfl
          simp [Signed] at this
        · rfl
        · simp at htext
      · rcases hP.ha with rfl | rfl | rfl
        · have := n1 rfl
          simp [Signed] at this
        · simp at htext
        · rfl
    subst ha
    have e : ex ++ r = x :: (u ++ w) := by simpa using htext.symm
    rcases hx with hx | ⟨rfl, c, u', rfl, hx⟩
    · rw [e, starts_cons] at n2; exact n2 hx
    · exact n3 ⟨c, u' ++ w, e, hx⟩
  have hF : Form (a ++ ip ++ fr ++ ex) a ip fr fp ex b ep := ⟨rfl, hP.ha, hP.hi, hP.hf, hP.he, hsome⟩
  refine ⟨a ++ ip ++ fr ++ ex, r, _, _, hP.text, ?_, number_iff.mpr ⟨a, ip, fr, fp, ex, b, ep, hF, rfl, rfl⟩, hL, ?_⟩
  · obtain ⟨x, u, e, -⟩ := hF.front
    rw [e]; simp
  · have hfd : Ds fp := by
      rcases hP.hf with ⟨-, rfl⟩ | ⟨-, -, h⟩
      · simp [Ds]
      · exact h
    have hed : Ds ep := by
      rcases hP.he with ⟨-, -, rfl⟩ | ⟨c, -, -, -, -, h⟩
      · simp [Ds]
      · exact h
    rw [hc, convert_eq hP.ha hP.hi hP.hf hP.he]
    by_cases l1 : fromChars 10 ip < 2 ^ 32
    · by_cases l2 : fromChars 10 fp < 2 ^ 32
      · by_cases l3 : fromChars 10 ep < 2 ^ 32
        · left
          rw [digits32_some hP.hi l1, digits32_some hfd l2, digits32_some hed l3]
          refine ⟨_, rfl, ?_⟩
          simp only [numValue, formValue, decide_eq_true_eq]
        · right
          rw [digits32_some hP.hi l1, digits32_some hfd l2, digits32_none hed l3]
          refine ⟨rfl, large_of ?_ hed l3⟩
          rcases hP.he with ⟨-, -, rfl⟩ | ⟨c, -, rfl, -, -, h⟩
          · exact List.nil_infix
          · exact ⟨a ++ ip ++ fr ++ (c :: b), [], by simp⟩
      · right
        rw [digits32_some hP.hi l1, digits32_none hfd l2]
        refine ⟨rfl, large_of ?_ hfd l2⟩
        rcases hP.hf with ⟨-, rfl⟩ | ⟨rfl, -, h⟩
        · exact List.nil_infix
        · exact ⟨a ++ ip ++ [0x2E], ex, by simp⟩
    · right
      rw [digits32_none hP.hi l1]
      exact ⟨rfl, large_of ⟨a, fr ++ ex, by simp⟩ hP.hi l1⟩

end Verif.Proof.CssTok
