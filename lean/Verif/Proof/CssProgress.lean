import Verif.Proof.CssDispatch
namespace Verif.Proof.CssTok
open Verif.Model.Infra Verif.Model.Unicode Verif.Model.Coder Verif.Model.Percent Verif.Model.Host Verif.Model.CssTok
open Verif.Spec Verif.Spec.Infra Verif.Spec.Percent Verif.Spec.Host Verif.Spec.CssTok

/-- The name is found, or the text ends in a reverse solidus behind it. -/
theorem name_or_tail (acc s : List Nat) : ∃ r v, identLoop acc s = some (r, acc ++ v) ∧ (Name s v r ∨ r = [0x5C]) := by
  induction hn : s.length using Nat.strongRecOn generalizing s acc with
  | _ n ih =>
    subst hn
    cases s with
    | nil =>
      refine ⟨[], [], by rw [identLoop]; simp, .inl (.stop (by simp) ?_)⟩
      rintro ⟨r, h, -⟩; cases h
    | cons c s =>
      rw [identLoop]
      split
      · rename_i hc
        obtain ⟨r, v, h1, h3⟩ := ih s.length (by simp) (acc ++ [c]) s rfl
        refine ⟨r, c :: v, by rw [h1]; simp, h3.imp (.cp ((identCp_iff c).mp hc)) id⟩
      · rename_i hc
        split
        · rename_i hv
          obtain ⟨rfl, hne, -⟩ := validEscape_cons hv
          obtain ⟨t, x, ht⟩ := escape_total s
          have he := (escape_iff _ _ _).mp ht
          have hl := escape_shorter he hne
          split
          · rename_i h; rw [ht] at h; cases h
          · rename_i t' x' h
            rw [ht] at h
            simp only [Option.some.injEq, Prod.mk.injEq] at h
            obtain ⟨rfl, rfl⟩ := h
            obtain ⟨r, v, h1, h3⟩ := ih t.length (by simp only [List.length_cons]; omega) (acc ++ [x]) t rfl
            exact ⟨r, x :: v, by rw [h1]; simp, h3.imp (.esc (validEscape_sound hv) he) id⟩
        · rename_i hv
          refine ⟨c :: s, [], by simp, ?_⟩
          by_cases hV : ValidEscape (c :: s)
          · right
            obtain ⟨r, e, hr⟩ := hV
            injection e with e1 e2
            subst e1 e2
            cases s with
            | nil => rfl
            | cons b s =>
              rw [starts_cons, ← newline_iff] at hr
              simp [validEscape, hr] at hv
          · left
            exact .stop (by rw [starts_cons, ← identCp_iff]; exact hc) hV

/-- Sound without a look at the end: what the code takes for the start of an identifier is one. -/
theorem startsIdent_sound {s : List Nat} (h : startsIdent s = true) : StartsIdent s := by
  cases s with
  | nil => cases h
  | cons a r =>
    rw [startsIdent.eq_def] at h
    dsimp only at h
    split at h
    · rename_i ha
      subst ha
      split at h
      · cases h
      · rename_i b r
        rw [Bool.or_eq_true, Bool.or_eq_true, beq_iff_eq, identStart_iff] at h
        refine .inr (.inr ⟨_, rfl, ?_⟩)
        rcases h with (h | h) | h
        · exact .inl (by rw [starts_cons]; exact h)
        · exact .inr (.inl (by rw [starts_cons]; exact h))
        · exact .inr (.inr (validEscape_sound h))
    · split at h
      · rename_i hi; exact .inl (by rw [starts_cons, ← identStart_iff]; exact hi)
      · split at h
        · exact .inr (.inl (validEscape_sound h))
        · cases h

theorem identLike_none {s : List Nat} (hs : startsIdent s = true) (h : consumeIdentLike s = none) : UrlAtEnd s := by
  rcases identLike_total s hs with ⟨r, t, h', -⟩ | ⟨-, v, h1, h2⟩
  · rw [h] at h'; cases h'
  · obtain ⟨r, v', e, h3⟩ := name_or_tail [] s
    rw [consumeIdent, e] at h1
    simp only [List.nil_append, Option.some.injEq, Prod.mk.injEq] at h1
    obtain ⟨rfl, rfl⟩ := h1
    rcases h3 with h3 | h3
    · exact ⟨v', startsIdent_sound hs, h3, h2⟩
    · cases h3

/-- Every result of a step: a token and a shorter rest, or undefined behaviour with its cause. -/
def Step (s : List Nat) (o : Option (List Nat × Token)) : Prop :=
  (∃ r t, o = some (r, t) ∧ t ≠ .eof ∧ r <:+ s ∧ (r.length < s.length ∨ (r = s ∧ Stuck s))) ∨
  (o = none ∧ (s = [0x23] ∨ UrlAtEnd s ∨ LargeNumber s))

theorem step_some {s r : List Nat} {t : Token} (ht : t ≠ .eof) (h1 : r <:+ s) (h2 : r.length < s.length) : Step s (some (r, t)) :=
  .inl ⟨r, t, rfl, ht, h1, .inl h2⟩

theorem numeric_step {s : List Nat} (h : StartsNumber s) : Step s (consumeNumeric s) := by
  obtain ⟨t, r, q, b, e1, e2, e3, e4, e5⟩ := number_spec h
  have hl : r.length < s.length := by
    have := List.length_pos_iff.mpr e2
    rw [e1, List.length_append]; omega
  have hsuf : r <:+ s := ⟨t, e1.symm⟩
  unfold consumeNumeric
  rcases e5 with ⟨v, e5, -⟩ | ⟨e5, e6⟩
  · rw [e5]; dsimp only
    split
    · obtain ⟨r', u, i1, i2, -⟩ := ident_total r
      rw [i1]
      exact step_some (by simp) (i2.trans hsuf) (Nat.lt_of_le_of_lt i2.length_le hl)
    · cases r with
      | nil => exact step_some (by simp) hsuf hl
      | cons c r =>
        dsimp only
        split
        · exact step_some (by simp) ((List.suffix_cons _ _).trans hsuf) (by simp only [List.length_cons] at hl; omega)
        · exact step_some (by simp) hsuf hl
  · rw [e5]
    exact .inr ⟨rfl, .inr (.inr ⟨t, q, b, e3, ⟨r, e1.symm⟩, e4, e6⟩)⟩

/-- A number behind a sign or full stop that do not belong together begins with a sign, or with a full stop behind a full stop. -/
theorem false_number {c : Nat} {r : List Nat} (hc : c = 0x2B ∨ c = 0x2D ∨ c = 0x2E) (h : StartsNumber r) (hn : ¬ StartsNumber (c :: r)) :
    ∃ b r1, r = b :: r1 ∧ (Signed b ∨ (c = 0x2E ∧ b = 0x2E)) ∧ startsIdent r = false := by
  rw [← startsNumber_iff] at h hn
  cases r with
  | nil => cases h
  | cons b r1 =>
    refine ⟨b, r1, rfl, ?_⟩
    rw [startsNumber.eq_def] at h hn
    dsimp only at h hn
    by_cases hs : b = 0x2B ∨ b = 0x2D
    · refine ⟨.inl hs, ?_⟩
      rw [if_pos hs] at h
      rw [startsIdent.eq_def]; dsimp only
      rcases hs with rfl | rfl
      · rfl
      · rw [if_pos rfl]
        split at h
        · cases h
        · rename_i x r2
          rw [Bool.or_eq_true, Bool.and_eq_true, beq_iff_eq, digit_iff] at h
          have hx : Digit x ∨ x = 0x2E := h.imp id And.left
          have : ¬ (isIdentStart x || x == 0x2D || validEscape (x :: r2)) = true := by
            rw [Bool.or_eq_true, Bool.or_eq_true, beq_iff_eq, identStart_iff]
            rintro ((h | h) | h)
            · unfold Digit IdentStart Letter at *; omega
            · unfold Digit at *; omega
            · obtain ⟨h, -⟩ := validEscape_cons h
              unfold Digit at *; omega
          simpa using this
    · rw [if_neg hs] at h
      split at h
      · rename_i hb
        subst hb
        split at h
        · cases h
        · rename_i x r2
          refine ⟨.inr ⟨?_, rfl⟩, rfl⟩
          by_contra hce
          have hcs : c = 0x2B ∨ c = 0x2D := by omega
          rw [if_pos hcs] at hn
          simp [h] at hn
      · rename_i hb
        exfalso
        have := (digit_iff b).mp h
        unfold Digit at this
        by_cases hcs : c = 0x2B ∨ c = 0x2D
        · rw [if_pos hcs] at hn
          simp [h] at hn
        · rw [if_neg hcs, if_pos (by omega)] at hn
          exact hn h

/-- The number 0 behind a sign. -/
def zero (neg : Bool) : Num := ⟨neg, 0, 0, 0, false, 0⟩

theorem no_exp {b : Nat} {r : List Nat} (h : b ≠ 0x45 ∧ b ≠ 0x65) : takeExponent (b :: r) = ([], b :: r) := by
  unfold takeExponent
  split
  · rename_i x y r' e
    injection e with e1 e2
    subst e1
    rw [if_neg (by omega)]
    split
    · rw [if_neg (by omega), ← e2]
    · rw [← e2]
  · rfl

theorem no_frac {b : Nat} {r : List Nat} (h : b ≠ 0x2E ∨ ¬ Starts Digit r) : takeFraction (b :: r) = ([], b :: r) := by
  unfold takeFraction
  split
  · rename_i x y r' e
    injection e with e1 e2
    subst e1
    rw [if_neg, ← e2]
    rintro ⟨h1, h2⟩
    rcases h with h | h
    · exact h h1
    · rw [e2, starts_cons, ← digit_iff] at h; exact h h2
  · rfl

theorem no_digits {b : Nat} {r : List Nat} (h : ¬ Digit b) : takeDigits (b :: r) = ([], b :: r) :=
  digits_complete (d := []) (by simp [Ds]) (by rw [starts_cons]; exact h)

/-- The sign is taken for the number 0. -/
theorem sign_zero {c : Nat} {r : List Nat} (hc : c = 0x2B ∨ c = 0x2D) (h : StartsNumber r) (hn : ¬ StartsNumber (c :: r)) :
    consumeNumeric (c :: r) = some (r, .number (zero (decide (c = 0x2D))) true) := by
  obtain ⟨b, r1, rfl, hb, hi⟩ := false_number (by tauto) h hn
  have hb : b = 0x2B ∨ b = 0x2D := by
    rcases hb with hb | ⟨hb, -⟩
    · exact hb
    · omega
  unfold consumeNumeric consumeNumber
  rw [takeSign, if_pos hc]; dsimp only
  rw [no_digits (by unfold Digit; omega)]; dsimp only
  rw [no_frac (.inl (by omega))]; dsimp only
  rw [no_exp (by omega)]; dsimp only
  have : convertNumber ([c] ++ [] ++ [] ++ []) = some (zero (decide (c = 0x2D))) := by
    rcases hc with rfl | rfl <;> rfl
  rw [this]; dsimp only
  rw [if_neg (by rw [hi]; simp), if_neg (by omega)]
  rfl

/-- The full stop is not taken and counts as the number 0. -/
theorem point_zero {r : List Nat} (h : StartsNumber r) (hn : ¬ StartsNumber (0x2E :: r)) :
    consumeNumeric (0x2E :: r) = some (0x2E :: r, .number (zero false) true) := by
  obtain ⟨b, r1, rfl, hb, hi⟩ := false_number (by tauto) h hn
  have hb : b = 0x2B ∨ b = 0x2D ∨ b = 0x2E := by
    rcases hb with hb | ⟨-, hb⟩
    · unfold Signed at hb; omega
    · omega
  unfold consumeNumeric consumeNumber
  rw [takeSign, if_neg (by omega)]; dsimp only
  rw [no_digits (by unfold Digit; omega)]; dsimp only
  rw [no_frac (.inr (by rw [starts_cons]; unfold Digit; omega))]; dsimp only
  rw [no_exp (by omega)]; dsimp only
  have : convertNumber ([] ++ [] ++ [] ++ []) = some (zero false) := rfl
  rw [this]
  rfl

theorem stuck_step {s : List Nat} (h : Stuck s) : tokenAt s = some (s, .number (zero false) true) := by
  obtain ⟨r, rfl, h1, h2⟩ := h
  show (if startsNumber r then consumeNumeric (0x2E :: r) else some (r, .delim 0x2E)) = _
  rw [if_pos ((startsNumber_iff r).mpr h2), point_zero h2 h1]

theorem identLike_step {s : List Nat} (h : startsIdent s = true) : Step s (consumeIdentLike s) := by
  rcases identLike_total s h with ⟨r, t, h1, h2, h3, h4⟩ | ⟨h1, -⟩
  · rw [h1]; exact step_some h4 h2 h3
  · exact .inr ⟨h1, .inr (.inl (identLike_none h h1))⟩

theorem step_ite {p : Prop} [Decidable p] {s : List Nat} {a b : Option (List Nat × Token)} (h1 : p → Step s a) (h2 : ¬ p → Step s b) :
    Step s (if p then a else b) := by
  by_cases h : p
  · rw [if_pos h]; exact h1 h
  · rw [if_neg h]; exact h2 h

theorem token_step {c : Nat} {r : List Nat} : Step (c :: r) (tokenAt (c :: r)) := by
  have simple : ∀ {t : Token}, t ≠ .eof → Step (c :: r) (some (r, t)) := fun h => step_some h (List.suffix_cons _ _) (by simp)
  rw [tokenAt]
  refine step_ite (fun hc => ?_) (fun _ => ?_)
  · exact step_some (by simp) ((dropWs_suffix r).trans (List.suffix_cons _ _))
      (by have := (dropWs_suffix r).length_le; simp only [List.length_cons]; omega)
  refine step_ite (fun hc => ?_) (fun _ => ?_)
  · obtain ⟨r', v, b, -, h1, h2⟩ := stringLoop_spec c hc [] r
    rw [consumeString, h2]
    refine step_some ?_ (h1.trans (List.suffix_cons _ _)) (by have := h1.length_le; simp only [List.length_cons]; omega)
    cases b <;> simp
  refine step_ite (fun hc => ?_) (fun _ => ?_)
  · subst hc
    cases r with
    | nil => exact .inr ⟨rfl, .inl rfl⟩
    | cons d r =>
      rw [onHash]
      split
      · obtain ⟨r', v, h1, h2, -⟩ := ident_total (d :: r)
        rw [h1]
        exact step_some (by simp) (h2.trans (List.suffix_cons _ _)) (by have := h2.length_le; simp only [List.length_cons] at *; omega)
      · exact simple (by simp)
  refine step_ite (fun hc => ?_) (fun _ => ?_)
  · exact simple (by simp)
  refine step_ite (fun hc => ?_) (fun _ => ?_)
  · exact simple (by simp)
  refine step_ite (fun hc => ?_) (fun _ => ?_)
  · split
    · rename_i hn
      by_cases h : StartsNumber (c :: r)
      · exact numeric_step h
      · rw [sign_zero (.inl hc) ((startsNumber_iff r).mp hn) h]
        exact simple (by simp)
    · exact simple (by simp)
  refine step_ite (fun hc => ?_) (fun _ => ?_)
  · exact simple (by simp)
  refine step_ite (fun hc => ?_) (fun _ => ?_)
  · subst hc
    by_cases hn : startsNumber r = true
    · rw [onMinus.eq_def, if_pos hn]
      by_cases h : StartsNumber (0x2D :: r)
      · exact numeric_step h
      · rw [sign_zero (.inr rfl) ((startsNumber_iff r).mp hn) h]
        exact simple (by simp)
    · by_cases hcdc : Cdc <+: 0x2D :: r
      · obtain ⟨t, rfl⟩ := cdc_iff.mp hcdc
        have : onMinus (0x2D :: 0x3E :: t) = some (t, .cdc) := rfl
        rw [this]
        exact step_some (by simp) (List.suffix_append [0x2D, 0x2D, 0x3E] t) (by simp; omega)
      · rw [minus_eq hn hcdc]
        split
        · rename_i hi
          apply identLike_step
          rw [startsIdent.eq_def]; dsimp only
          rw [if_pos rfl]
          cases r with
          | nil => cases hi
          | cons b r =>
            rw [startsIdent.eq_def] at hi; dsimp only at hi ⊢
            split at hi
            · rename_i h; simp [h]
            · split at hi
              · rename_i h; simp [h]
              · split at hi
                · rw [hi]; simp
                · cases hi
        · exact simple (by simp)
  refine step_ite (fun hc => ?_) (fun _ => ?_)
  · subst hc
    split
    · rename_i hn
      by_cases h : StartsNumber (0x2E :: r)
      · exact numeric_step h
      · rw [point_zero ((startsNumber_iff r).mp hn) h]
        exact .inl ⟨_, _, rfl, by simp, List.suffix_refl _, .inr ⟨rfl, r, rfl, h, (startsNumber_iff r).mp hn⟩⟩
    · exact simple (by simp)
  refine step_ite (fun hc => ?_) (fun _ => ?_)
  · exact simple (by simp)
  refine step_ite (fun hc => ?_) (fun _ => ?_)
  · exact simple (by simp)
  refine step_ite (fun hc => ?_) (fun _ => ?_)
  · unfold onLess
    split
    · rename_i a b d r'
      split
      · exact step_some (by simp) (List.suffix_append [c, a, b, d] r') (by simp; omega)
      · exact simple (by simp)
    · exact simple (by simp)
  refine step_ite (fun hc => ?_) (fun _ => ?_)
  · split
    · obtain ⟨r', v, h1, h2, -⟩ := ident_total r
      rw [h1]
      exact step_some (by simp) (h2.trans (List.suffix_cons _ _)) (by have := h2.length_le; simp only [List.length_cons] at *; omega)
    · exact simple (by simp)
  refine step_ite (fun hc => ?_) (fun _ => ?_)
  · exact simple (by simp)
  refine step_ite (fun hc => ?_) (fun _ => ?_)
  · split
    · rename_i hv
      apply identLike_step
      rw [startsIdent.eq_def]; dsimp only
      subst hc
      rw [if_neg (by omega), if_pos rfl, hv]
      simp
    · exact simple (by simp)
  refine step_ite (fun hc => ?_) (fun _ => ?_)
  · exact simple (by simp)
  refine step_ite (fun hc => ?_) (fun _ => ?_)
  · exact simple (by simp)
  refine step_ite (fun hc => ?_) (fun _ => ?_)
  · exact simple (by simp)
  refine step_ite (fun hc => ?_) (fun _ => ?_)
  · have hd := hc
    apply numeric_step
    rw [digit_iff] at hd
    by_contra hn
    exact no_digit hn ((digit_iff c).mpr hd)
  refine step_ite (fun hc => ?_) (fun _ => ?_)
  · have hi := hc
    apply identLike_step
    rw [startsIdent.eq_def]; dsimp only
    have := (identStart_iff c).mp hi
    unfold IdentStart Letter at this
    rw [if_neg (by omega), if_pos hi]
  · exact simple (by simp)

end Verif.Proof.CssTok
