import Verif.Proof.CssNumber
namespace Verif.Proof.CssTok
open Verif.Model.Infra Verif.Model.Unicode Verif.Model.Coder Verif.Model.Percent Verif.Model.Host Verif.Model.CssTok
open Verif.Spec Verif.Spec.Infra Verif.Spec.Percent Verif.Spec.Host Verif.Spec.CssTok
open Verif.Proof.Host4 Verif.Proof.HostParse Verif.Proof.Digits

/-- The parts of a number. -/
structure Form (t a ip fr fp ex b ep : List Nat) : Prop where
  text : t = a ++ ip ++ fr ++ ex
  ha : IsSign a
  hi : Ds ip
  hf : IsFrac fr fp
  he : IsExp ex b ep
  some : ip ≠ [] ∨ fp ≠ []

def formValue (a ip fp b ep : List Nat) : ℚ :=
  (if a = [0x2D] then -1 else 1) * (fromChars 10 ip + fromChars 10 fp / 10 ^ fp.length) *
    (if b = [0x2D] then 1 / 10 ^ fromChars 10 ep else 10 ^ fromChars 10 ep)

theorem sign_iff {a : List Nat} {x : ℚ} : Sign a x ↔ IsSign a ∧ x = if a = [0x2D] then -1 else 1 := by
  constructor
  · intro h; cases h
    · exact ⟨.inl rfl, by simp⟩
    · exact ⟨.inr (.inl rfl), by simp⟩
    · exact ⟨.inr (.inr rfl), by simp⟩
  · rintro ⟨rfl | rfl | rfl, rfl⟩
    · exact .none
    · exact .plus
    · exact .minus

theorem mantissa_iff {t : List Nat} {q : ℚ} {i : Bool} : Mantissa t q i ↔ ∃ a ip fr fp, t = a ++ ip ++ fr ∧ IsSign a ∧ Ds ip ∧
    IsFrac fr fp ∧ (ip ≠ [] ∨ fp ≠ []) ∧ i = decide (fr = []) ∧
    q = (if a = [0x2D] then -1 else 1) * (fromChars 10 ip + fromChars 10 fp / 10 ^ fp.length) := by
  constructor
  · intro h
    cases h with
    | int hs hn =>
      obtain ⟨h1, rfl⟩ := sign_iff.mp hs
      obtain ⟨h2, h3, rfl⟩ := numeral10.mp hn
      exact ⟨_, _, [], [], by simp, h1, h3, .inl ⟨rfl, rfl⟩, .inl h2, by simp, by simp [fromChars]⟩
    | @frac a i f x n hs hf hn =>
      obtain ⟨h1, rfl⟩ := sign_iff.mp hs
      obtain ⟨h2, h3, rfl⟩ := numeral10.mp hn
      refine ⟨_, _, 0x2E :: f, f, rfl, h1, fun c hc => h3 c (by simp [hc]), .inr ⟨rfl, hf, fun c hc => h3 c (by simp [hc])⟩,
        .inr hf, by simp, ?_⟩
      rw [fromChars_app]
      push_cast
      field_simp
  · rintro ⟨a, ip, fr, fp, rfl, h1, h2, h3, h4, rfl, rfl⟩
    rcases h3 with ⟨rfl, rfl⟩ | ⟨rfl, h5, h6⟩
    · have := Mantissa.int (sign_iff.mpr ⟨h1, rfl⟩) (numeral10.mpr ⟨by simpa using h4, h2, rfl⟩)
      simpa [fromChars] using this
    · have := Mantissa.frac (i := ip) (sign_iff.mpr ⟨h1, rfl⟩) h5 (numeral10.mpr ⟨by simp [h5], ?_, rfl⟩)
      · rw [fromChars_app] at this
        push_cast at this
        have e : ∀ x y z : ℚ, x * (y * 10 ^ fp.length + z) / 10 ^ fp.length = x * (y + z / 10 ^ fp.length) := by
          intro x y z; field_simp
        rw [e] at this
        simpa using this
      · intro c hc
        rcases List.mem_append.mp hc with hc | hc
        · exact h2 c hc
        · exact h6 c hc

/-- Numbers are what has these parts. -/
theorem number_iff {t : List Nat} {q : ℚ} {i : Bool} : Number t q i ↔ ∃ a ip fr fp ex b ep, Form t a ip fr fp ex b ep ∧
    i = decide (fr = [] ∧ ex = []) ∧ q = formValue a ip fp b ep := by
  constructor
  · intro h
    cases h with
    | plain h =>
      obtain ⟨a, ip, fr, fp, h1, h2, h3, h4, h5, rfl, rfl⟩ := mantissa_iff.mp h
      exact ⟨a, ip, fr, fp, [], [], [], ⟨by simp [h1], h2, h3, h4, .inl ⟨rfl, rfl, rfl⟩, h5⟩, by simp, by simp [formValue, fromChars]⟩
    | @up m a' e q i' c n h hc hs hn =>
      obtain ⟨a, ip, fr, fp, h1, h2, h3, h4, h5, rfl, rfl⟩ := mantissa_iff.mp h
      obtain ⟨s1, s2⟩ := sign_iff.mp hs
      obtain ⟨n1, n2, rfl⟩ := numeral10.mp hn
      refine ⟨a, ip, fr, fp, c :: a' ++ e, a', e, ⟨by simp [h1], h2, h3, h4, .inr ⟨c, hc, rfl, s1, n1, n2⟩, h5⟩, by simp, ?_⟩
      have : a' ≠ [0x2D] := by
        intro h; rw [if_pos h] at s2; norm_num at s2
      simp [formValue, this]
    | @down m e q i' c n h hc hn =>
      obtain ⟨a, ip, fr, fp, h1, h2, h3, h4, h5, rfl, rfl⟩ := mantissa_iff.mp h
      obtain ⟨n1, n2, rfl⟩ := numeral10.mp hn
      refine ⟨a, ip, fr, fp, c :: [0x2D] ++ e, [0x2D], e, ⟨by simp [h1], h2, h3, h4, .inr ⟨c, hc, rfl, .inr (.inr rfl), n1, n2⟩, h5⟩, by simp, ?_⟩
      unfold formValue
      rw [if_pos rfl, one_div, div_eq_mul_inv]
  · rintro ⟨a, ip, fr, fp, ex, b, ep, ⟨rfl, h1, h2, h3, h4, h5⟩, rfl, rfl⟩
    have hm : Mantissa (a ++ ip ++ fr) _ _ := mantissa_iff.mpr ⟨a, ip, fr, fp, rfl, h1, h2, h3, h5, rfl, rfl⟩
    rcases h4 with ⟨rfl, rfl, rfl⟩ | ⟨c, hc, rfl, hb, he, hd⟩
    · have := Number.plain hm
      simpa [formValue, fromChars] using this
    · by_cases hb' : b = [0x2D]
      · subst hb'
        have := Number.down (c := c) hm hc (numeral10.mpr ⟨he, hd, rfl⟩)
        rw [div_eq_mul_inv] at this
        simpa [formValue] using this
      · have := Number.up (c := c) hm hc (sign_iff.mpr ⟨hb, by simp [hb']⟩) (numeral10.mpr ⟨he, hd, rfl⟩)
        simpa [formValue, hb'] using this

/-- The first of a number. -/
theorem Form.front {t a ip fr fp ex b ep : List Nat} (h : Form t a ip fr fp ex b ep) :
    ∃ x u, t = a ++ x :: u ∧ (Digit x ∨ (x = 0x2E ∧ Starts Digit u)) := by
  obtain ⟨rfl, h1, h2, h3, h4, h5⟩ := h
  cases ip with
  | cons x ip => exact ⟨x, ip ++ fr ++ ex, by simp, .inl (h2 x (by simp))⟩
  | nil =>
    rcases h3 with ⟨rfl, rfl⟩ | ⟨rfl, h6, h7⟩
    · simp at h5
    · cases fp with
      | nil => exact absurd rfl h6
      | cons y fp => exact ⟨0x2E, y :: fp ++ ex, by simp, .inr ⟨rfl, by rw [List.cons_append, starts_cons]; exact h7 y (by simp)⟩⟩

theorem startsNumber_iff (s : List Nat) : startsNumber s = true ↔ StartsNumber s := by
  constructor
  · intro h
    have key : ∀ a x r, IsSign a → Digit x → s = a ++ x :: r → StartsNumber s := by
      rintro a x r ha hx rfl
      refine ⟨a ++ [x], _, _, number_iff.mpr ⟨a, [x], [], [], [], [], [], ⟨by simp, ha, ?_, .inl ⟨rfl, rfl⟩, .inl ⟨rfl, rfl, rfl⟩, .inl (by simp)⟩, rfl, rfl⟩,
        ⟨r, by simp⟩⟩
      intro c hc; rw [List.mem_singleton.mp hc]; exact hx
    have key2 : ∀ a x r, IsSign a → Digit x → s = a ++ 0x2E :: x :: r → StartsNumber s := by
      rintro a x r ha hx rfl
      refine ⟨a ++ [0x2E, x], _, _, number_iff.mpr ⟨a, [], [0x2E, x], [x], [], [], [], ⟨by simp, ha, by simp [Ds],
        .inr ⟨rfl, by simp, ?_⟩, .inl ⟨rfl, rfl, rfl⟩, .inr (by simp)⟩, rfl, rfl⟩, ⟨r, by simp⟩⟩
      intro c hc; rw [List.mem_singleton.mp hc]; exact hx
    rw [startsNumber.eq_def] at h
    split at h
    · cases h
    · rename_i a r
      split at h
      · rename_i ha
        have ha' : IsSign [a] := by
          rcases ha with rfl | rfl
          · exact .inr (.inl rfl)
          · exact .inr (.inr rfl)
        split at h
        · cases h
        · rename_i b r
          rw [Bool.or_eq_true, Bool.and_eq_true, beq_iff_eq, digit_iff] at h
          rcases h with h | ⟨rfl, h⟩
          · exact key [a] b r ha' h rfl
          · split at h
            · cases h
            · rename_i c r
              exact key2 [a] c r ha' ((digit_iff c).mp h) rfl
      · split at h
        · rename_i ha
          subst ha
          split at h
          · cases h
          · rename_i b r
            exact key2 [] b r (.inl rfl) ((digit_iff b).mp h) rfl
        · exact key [] a r (.inl rfl) ((digit_iff a).mp h) rfl
  · rintro ⟨t, q, i, h, hp⟩
    obtain ⟨a, ip, fr, fp, ex, b, ep, hF, -, -⟩ := number_iff.mp h
    obtain ⟨x, u, rfl, hx⟩ := hF.front
    obtain ⟨w, rfl⟩ := hp
    have hx2 : Starts Digit u → Starts Digit (u ++ w) := by
      rintro ⟨c, r, rfl, hc⟩; simpa using hc
    rcases hF.ha with rfl | rfl | rfl
    · show startsNumber (x :: (u ++ w)) = true
      rw [startsNumber.eq_def]; dsimp only
      rcases hx with hx | ⟨rfl, hx⟩
      · rw [if_neg (by unfold Digit at hx; omega), if_neg (by unfold Digit at hx; omega)]; exact (digit_iff x).mpr hx
      · obtain ⟨c, r, h1, h2⟩ := hx2 hx
        rw [if_neg (by omega), if_pos rfl, h1]; exact (digit_iff c).mpr h2
    all_goals
      first
      | show startsNumber (0x2B :: x :: (u ++ w)) = true
      | show startsNumber (0x2D :: x :: (u ++ w)) = true
      rw [startsNumber.eq_def]; dsimp only
      rw [if_pos (by simp)]
      rcases hx with hx | ⟨rfl, hx⟩
      · rw [(digit_iff x).mpr hx]; rfl
      · obtain ⟨c, r, h1, h2⟩ := hx2 hx
        rw [h1]; dsimp only; rw [(digit_iff c).mpr h2]; rfl

/-! ### The longest number -/

theorem ds_prefix {d d' r r' : List Nat} (h : d ++ r = d' ++ r') (hd' : Ds d') (hr : ¬ Starts Digit r) :
    d' <+: d := by
  by_cases hl : d'.length ≤ d.length
  · exact List.prefix_of_prefix_length_le ⟨r', h.symm⟩ ⟨r, rfl⟩ hl
  · exfalso
    have hp : d <+: d' := List.prefix_of_prefix_length_le ⟨r, rfl⟩ ⟨r', h.symm⟩ (by omega)
    obtain ⟨w, rfl⟩ := hp
    rw [List.append_assoc, List.append_cancel_left_eq] at h
    cases w with
    | nil => simp at hl
    | cons x w =>
      rw [h] at hr
      exact hr ⟨x, w ++ r', rfl, hd' x (by simp)⟩

theorem longest {s a ip fr fp ex b ep r t a' ip' fr' fp' ex' b' ep' : List Nat} (hP : Parts s a ip fr fp ex b ep r)
    (hF : Form t a' ip' fr' fp' ex' b' ep') (ht : t <+: s) : t.length ≤ (a ++ ip ++ fr ++ ex).length := by
  obtain ⟨u, hu⟩ := ht
  have hfront := hF.front
  obtain ⟨htext, fa, fi, ff, fe, fs⟩ := hF
  -- the sign
  have ha : a' = a := by
    obtain ⟨x, w, hw, hx⟩ := hfront
    have hx' : ¬ Signed x := by
      unfold Signed
      rcases hx with hx | ⟨rfl, -⟩
      · unfold Digit at hx; omega
      · omega
    have e := hP.text
    rw [← hu, hw] at e
    rcases fa with rfl | rfl | rfl
    · rcases hP.ha with rfl | rfl | rfl
      · rfl
      · simp at e; exact absurd (.inl e.1) hx'
      · simp at e; exact absurd (.inr e.1) hx'
    · rcases hP.ha with rfl | rfl | rfl
      · exfalso
        refine hP.noSign rfl ?_
        rw [← hu, hw]
        simp [Signed]
      · rfl
      · simp at e
    · rcases hP.ha with rfl | rfl | rfl
      · exfalso
        refine hP.noSign rfl ?_
        rw [← hu, hw]
        simp [Signed]
      · simp at e
      · rfl
  subst ha
  have e1 : ip ++ (fr ++ ex ++ r) = ip' ++ (fr' ++ ex' ++ u) := by
    have e := hP.text
    rw [← hu, htext] at e
    simpa using e.symm
  subst htext
  -- the integer part
  have hip := ds_prefix e1 fi hP.noInt
  obtain ⟨w, rfl⟩ := hip
  cases w with
  | cons x w =>
    have : fr' ++ ex' = [] := by
      have hx : Digit x := hP.hi x (by simp)
      have e2 : fr' ++ ex' ++ u = x :: (w ++ (fr ++ ex ++ r)) := by simpa using e1.symm
      rcases ff with ⟨rfl, -⟩ | ⟨rfl, -, -⟩
      · rcases fe with ⟨rfl, -⟩ | ⟨c, hc, rfl, -⟩
        · rfl
        · simp at e2; unfold Digit at hx; omega
      · simp at e2; unfold Digit at hx; omega
    have := congrArg List.length this
    simp only [List.length_append, List.length_cons, List.length_nil] at *
    omega
  | nil =>
    simp only [List.append_nil] at e1 ⊢
    have e2 : fr ++ (ex ++ r) = fr' ++ (ex' ++ u) := by simpa using e1
    -- the fraction
    rcases ff with ⟨rfl, rfl⟩ | ⟨rfl, h6, h7⟩
    · rcases hP.hf with ⟨rfl, rfl⟩ | ⟨rfl, h8, h9⟩
      · -- no fractions
        simp only [List.nil_append, List.append_nil] at e2 ⊢
        rcases fe with ⟨rfl, -⟩ | ⟨c, hc, rfl, hb, hne, hd⟩
        · simp
        · rcases hP.he with ⟨rfl, rfl, rfl⟩ | ⟨c', hc', rfl, hb', hne', hd'⟩
          · exfalso
            cases ep' with
            | nil => exact hne rfl
            | cons y ep' => exact hP.noExp rfl ⟨c, b', y, ep' ++ u, hc, hb, hd y (by simp), by simpa using e2⟩
          · have := exp_complete hc' hb' hne' hd' (hP.noExpDigit hne')
            obtain ⟨d1, b2, ep2, d2, d3, d4⟩ := exp_sound (c' :: b ++ ep ++ r)
            simp only [List.cons_append, List.cons.injEq] at e2
            obtain ⟨rfl, e3⟩ := e2
            have : b = b' := by
              cases ep with
              | nil => exact absurd rfl hne'
              | cons y ep =>
                cases ep' with
                | nil => exact absurd rfl hne
                | cons y' ep' =>
                  have hy := hd' y (by simp)
                  have hy' := hd y' (by simp)
                  unfold Digit at hy hy'
                  rcases hb with rfl | rfl | rfl <;> rcases hb' with rfl | rfl | rfl <;> simp at e3 <;> first | rfl | omega
            subst this
            have e4 : ep ++ r = ep' ++ u := by simpa using e3
            have := (ds_prefix e4 hd (hP.noExpDigit hne')).length_le
            simp only [List.length_append, List.length_cons]
            omega
      · have : ex' = [] := by
          rcases fe with ⟨rfl, -⟩ | ⟨c, hc, rfl, -⟩
          · rfl
          · simp at e2; omega
        subst this
        simp
    · rcases hP.hf with ⟨rfl, rfl⟩ | ⟨rfl, h8, h9⟩
      · exfalso
        cases fp' with
        | nil => exact h6 rfl
        | cons y fp' => exact hP.noFrac rfl ⟨y, fp' ++ (ex' ++ u), by simpa using e2, h7 y (by simp)⟩
      · have e3 : fp ++ (ex ++ r) = fp' ++ (ex' ++ u) := by simpa using e2
        have hfp := ds_prefix e3 h7 (hP.noFracDigit h8)
        obtain ⟨w, rfl⟩ := hfp
        cases w with
        | cons x w =>
          have : ex' = [] := by
            have hx : Digit x := h9 x (by simp)
            have e2 : ex' ++ u = x :: (w ++ (ex ++ r)) := by simpa using e3.symm
            rcases fe with ⟨rfl, -⟩ | ⟨c, hc, rfl, -⟩
            · rfl
            · simp at e2; unfold Digit at hx; omega
          subst this
          simp
        | nil =>
          have e4 : ex ++ r = ex' ++ u := by simpa using e3
          simp only [List.append_nil]
          rcases fe with ⟨rfl, -⟩ | ⟨c, hc, rfl, hb, hne, hd⟩
          · simp
          · rcases hP.he with ⟨rfl, rfl, rfl⟩ | ⟨c', hc', rfl, hb', hne', hd'⟩
            · exfalso
              cases ep' with
              | nil => exact hne rfl
              | cons y ep' => exact hP.noExp rfl ⟨c, b', y, ep' ++ u, hc, hb, hd y (by simp), by simpa using e4⟩
            · simp only [List.cons_append, List.cons.injEq] at e4
              obtain ⟨rfl, e5⟩ := e4
              have : b = b' := by
                cases ep with
                | nil => exact absurd rfl hne'
                | cons y ep =>
                  cases ep' with
                  | nil => exact absurd rfl hne
                  | cons y' ep' =>
                    have hy := hd' y (by simp)
                    have hy' := hd y' (by simp)
                    unfold Digit at hy hy'
                    rcases hb with rfl | rfl | rfl <;> rcases hb' with rfl | rfl | rfl <;> simp at e5 <;> first | rfl | omega
              subst this
              have e6 : ep ++ r = ep' ++ u := by simpa using e5
              have := (ds_prefix e6 hd (hP.noExpDigit hne')).length_le
              simp only [List.length_append, List.length_cons]
              omega

end Verif.Proof.CssTok
