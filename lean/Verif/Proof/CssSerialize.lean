import Verif.Proof.CssStream
import Verif.Spec.CssSerialize
namespace Verif.Proof.CssTok
open Verif.Model.Infra Verif.Model.Unicode Verif.Model.Coder Verif.Model.Percent Verif.Model.Host Verif.Model.CssTok
open Verif.Spec Verif.Spec.Infra Verif.Spec.Percent Verif.Spec.Host Verif.Spec.CssTok

theorem no_comment {c : Nat} (hc : c ≠ 0x2F) (s : List Nat) : consumeComments (c :: s) = c :: s := by
  cases s with
  | nil => rw [consumeComments.eq_def]
  | cons b s => rw [consumeComments, if_neg (by omega)]

theorem hexLower_digit {d : Nat} (h : d < 16) : HexDigit (hexLower d) d := by
  unfold HexDigit hexLower
  split <;> omega

theorem hexText_numeral {n : Nat} (h : n < 256) : Numeral 16 (hexText n) n := by
  unfold hexText
  split
  · rename_i h'; exact .one (hexLower_digit h') h'
  · have : Numeral 16 ([hexLower (n / 16)] ++ [hexLower (n % 16)]) (n / 16 * 16 + n % 16) :=
      .snoc (.one (hexLower_digit (by omega)) (by omega)) (hexLower_digit (by omega)) (by omega)
    rw [show n / 16 * 16 + n % 16 = n by omega] at this
    exact this

theorem hexText_short (n : Nat) : (hexText n).length ≤ 2 := by unfold hexText; split <;> simp

theorem hexText_head (n : Nat) : ∃ h t, hexText n = h :: t ∧ h ≠ 0x0A := by
  unfold hexText hexLower
  split
  · exact ⟨_, _, rfl, by split <;> omega⟩
  · exact ⟨_, _, rfl, by split <;> omega⟩

theorem escaped_small {c : Nat} (h0 : c ≠ 0) (h : c < 256) : escaped c = c := by
  unfold escaped IsScalar
  rw [if_neg (by omega)]

/-- An escape with a number is read as that number. -/
theorem hex_escape {c : Nat} (h0 : c ≠ 0) (h : c < 256) (t : List Nat) : Escape (hexText c ++ 0x20 :: t) c t := by
  have := hexText_short c
  have he : Escape (hexText c ++ [0x20] ++ t) (escaped c) t :=
    .hex (hexText_numeral h) (by omega) (.inr (by
      rw [List.singleton_append, starts_cons, ← hex_iff]; decide)) (.inr ⟨0x20, by unfold Ws; omega, rfl⟩)
  rw [escaped_small h0 h] at he
  simpa using he

theorem plain_escape {c : Nat} (h : ¬ Hex c) (t : List Nat) : Escape (c :: t) c t := .plain h

theorem asCodePoint_append (c : Nat) (t : List Nat) : asCodePoint c ++ t = 0x5C :: (hexText c ++ 0x20 :: t) := by
  simp [asCodePoint]

theorem valid_codePoint (c : Nat) (t : List Nat) : validEscape (0x5C :: (hexText c ++ 0x20 :: t)) = true := by
  obtain ⟨h, x, e, hn⟩ := hexText_head c
  rw [e]
  simp [validEscape, isNewline, hn]

theorem loop_escape {acc s t : List Nat} {c : Nat} (hv : validEscape (0x5C :: s) = true) (he : Escape s c t) :
    identLoop acc (0x5C :: s) = identLoop (acc ++ [c]) t := by
  rw [identLoop.eq_def]; dsimp only
  rw [if_neg (by decide), if_pos hv]
  have h := (escape_iff _ _ _).mpr he
  split
  · rename_i e; rw [h] at e; cases e
  · rename_i r x e
    rw [h] at e
    simp only [Option.some.injEq, Prod.mk.injEq] at e
    obtain ⟨rfl, rfl⟩ := e
    rfl

theorem not_hex {c : Nat} (h : ¬ IdentCp c) : ¬ Hex c := by
  rintro ⟨v, hv⟩
  unfold HexDigit at hv
  unfold IdentCp IdentStart Letter Digit at h
  omega

theorem control_small {c : Nat} (h : Control c) : c ≠ 0 ∧ c < 256 := by unfold Control at h; omega

theorem loop_char (acc t : List Nat) (c : Nat) :
    identLoop acc (identChar c ++ t) = identLoop (acc ++ [if c = 0 then 0xFFFD else c]) t := by
  unfold identChar
  by_cases h0 : c = 0
  · rw [if_pos h0, if_pos h0]
    rw [List.singleton_append, identLoop, if_pos (by decide)]
  rw [if_neg h0, if_neg h0]
  by_cases h1 : Control c
  · rw [if_pos h1, asCodePoint_append]
    obtain ⟨-, h2⟩ := control_small h1
    exact loop_escape (valid_codePoint c t) (hex_escape h0 h2 t)
  rw [if_neg h1]
  by_cases h2 : IdentCp c
  · rw [if_pos h2, List.singleton_append, identLoop, if_pos ((identCp_iff c).mpr h2)]
  · rw [if_neg h2]
    refine loop_escape ?_ (plain_escape (not_hex h2) t)
    have : c ≠ 0x0A := by unfold Control at h1; omega
    simp [validEscape, isNewline, this]

/-- The end of an identifier. -/
def Stops (r : List Nat) : Prop := ¬ Starts IdentCp r ∧ ¬ ValidEscape r

theorem loop_stop {acc r : List Nat} (h : Stops r) : identLoop acc r = some (r, acc) := by
  cases r with
  | nil => rw [identLoop]
  | cons c r =>
    rw [identLoop, if_neg, if_neg]
    · intro h'; exact h.2 (validEscape_sound h')
    · have := h.1; rw [starts_cons, ← identCp_iff] at this; exact this

theorem loop_chars (acc v : List Nat) {r : List Nat} (hr : Stops r) :
    identLoop acc (v.flatMap identChar ++ r) = some (r, acc ++ withoutNul v) := by
  induction v generalizing acc with
  | nil => rw [List.flatMap_nil, List.nil_append, loop_stop hr]; simp [withoutNul]
  | cons c v ih =>
    rw [List.flatMap_cons, List.append_assoc, loop_char, ih]
    simp [withoutNul]

theorem digit_small {c : Nat} (h : Digit c) : c ≠ 0 ∧ c < 256 := by unfold Digit at h; omega

/-- The identifier is read back. -/
theorem ident_back (v : List Nat) {r : List Nat} (hr : Stops r) : consumeIdent (serializeIdent v ++ r) = some (r, withoutNul v) := by
  unfold consumeIdent
  cases v with
  | nil => rw [serializeIdent, List.nil_append, loop_stop hr]; rfl
  | cons c v =>
    rw [serializeIdent.eq_def]; dsimp only
    by_cases h : Digit c
    · obtain ⟨h0, h1⟩ := digit_small h
      rw [if_pos h, List.append_assoc, asCodePoint_append, loop_escape (valid_codePoint _ _) (hex_escape h0 h1 _), loop_chars _ _ hr]
      simp [withoutNul, h0]
    rw [if_neg h]
    by_cases hm : c = 0x2D
    · subst hm
      rw [if_pos rfl]
      cases v with
      | nil =>
        dsimp only
        show identLoop [] (0x5C :: 0x2D :: r) = _
        rw [loop_escape (c := 0x2D) (t := r) (by rfl) (plain_escape (by rw [← hex_iff]; decide) r), loop_stop hr]
        rfl
      | cons d v =>
        dsimp only
        by_cases hd : Digit d
        · obtain ⟨h0, h1⟩ := digit_small hd
          rw [if_pos hd, List.cons_append, identLoop, if_pos (by decide), List.append_assoc, asCodePoint_append,
            loop_escape (valid_codePoint _ _) (hex_escape h0 h1 _), loop_chars _ _ hr]
          simp [withoutNul, h0]
        · rw [if_neg hd, List.cons_append, identLoop, if_pos (by decide), loop_chars _ _ hr]
          simp [withoutNul]
    · rw [if_neg hm, loop_chars _ _ hr]; simp

/-- The text begins with an identifier, neither with a hyphen nor a digit. -/
def Good (s : List Nat) : Prop := Starts IdentStart s ∨ validEscape s = true

theorem good_char {c : Nat} (h : ¬ Digit c) (hm : c ≠ 0x2D) (t : List Nat) : Good (identChar c ++ t) := by
  unfold identChar
  by_cases h0 : c = 0
  · rw [if_pos h0]; exact .inl (by rw [List.singleton_append, starts_cons, ← identStart_iff]; decide)
  rw [if_neg h0]
  by_cases h1 : Control c
  · rw [if_pos h1, asCodePoint_append]; exact .inr (valid_codePoint c t)
  rw [if_neg h1]
  by_cases h2 : IdentCp c
  · rw [if_pos h2]
    refine .inl ?_
    rw [List.singleton_append, starts_cons]
    exact h2.resolve_right (by tauto)
  · rw [if_neg h2]
    have : c ≠ 0x0A := by unfold Control at h1; omega
    exact .inr (by simp [validEscape, isNewline, this])

theorem good_cons {s : List Nat} (h : Good s) : ∃ c r, s = c :: r ∧ ¬ Digit c ∧ c ≠ 0x2B ∧ c ≠ 0x2D ∧ c ≠ 0x2E ∧ c ≠ 0x3E ∧ c ≠ 0x2F ∧
    (IdentStart c ∨ c = 0x5C) := by
  rcases h with ⟨c, r, rfl, h⟩ | h
  · refine ⟨c, r, rfl, ?_⟩
    unfold Digit IdentStart Letter at *
    omega
  · cases s with
    | nil => cases h
    | cons c r =>
      obtain ⟨rfl, -⟩ := validEscape_cons h
      exact ⟨_, r, rfl, by unfold Digit; omega, by omega, by omega, by omega, by omega, by omega, .inr rfl⟩

theorem good_number {s : List Nat} (h : Good s) : startsNumber s = false := by
  obtain ⟨c, r, rfl, h1, h2, h3, h4, -⟩ := good_cons h
  rw [startsNumber.eq_def]; dsimp only
  rw [if_neg (by omega), if_neg h4]
  rw [← digit_iff] at h1; simpa using h1

theorem good_dash_number {s : List Nat} (h : Good s) : startsNumber (0x2D :: s) = false := by
  obtain ⟨c, r, rfl, h1, h2, h3, h4, -⟩ := good_cons h
  rw [← digit_iff] at h1
  rw [startsNumber.eq_def]; dsimp only
  rw [if_pos (by omega)]
  simp [h1, h4]

theorem good_ident {s : List Nat} (h : Good s) : startsIdent s = true := by
  obtain ⟨c, r, rfl, h1, h2, h3, h4, h5⟩ := good_cons h
  rw [startsIdent.eq_def]; dsimp only
  rw [if_neg h3]
  rcases h with h | h
  · rw [starts_cons, ← identStart_iff] at h
    rw [if_pos h]
  · obtain ⟨rfl, -⟩ := validEscape_cons h
    rw [if_neg (by decide), if_pos rfl, h]

theorem dash_ident {s : List Nat} (h : startsIdent s = true) : startsIdent (0x2D :: s) = true := by
  cases s with
  | nil => cases h
  | cons b r =>
    rw [startsIdent.eq_def] at h ⊢; dsimp only at h ⊢
    rw [if_pos rfl]
    split at h
    · rename_i hb; simp [hb]
    · split at h
      · rename_i hb; simp [hb]
      · split at h
        · rw [h]; simp
        · cases h

theorem at_good {s : List Nat} (h : Good s) : tokenAt s = consumeIdentLike s := by
  rcases h with ⟨c, r, rfl, h⟩ | h
  · exact at_identStart h
  · cases s with
    | nil => cases h
    | cons c r =>
      obtain ⟨rfl, -⟩ := validEscape_cons h
      show (if validEscape (0x5C :: r) = true then consumeIdentLike (0x5C :: r) else some (r, .delim 0x5C)) = _
      rw [if_pos h]

theorem at_dash {s : List Nat} (h1 : startsNumber s = false) (h2 : ¬ Cdc <+: 0x2D :: s) (h3 : startsIdent s = true) :
    tokenAt (0x2D :: s) = consumeIdentLike (0x2D :: s) := by
  show onMinus s = _
  rw [minus_eq (by simp [h1]) h2, if_pos h3]

/-- The texts that the code does not read as the identifier they are. -/
def TwoDashes (v : List Nat) : Prop := ∃ t, v = 0x2D :: 0x2D :: t ∧ ∀ d, t.head? = some d → Digit d

theorem ser_good {c : Nat} {v : List Nat} (r : List Nat) (hm : c ≠ 0x2D) : Good (serializeIdent (c :: v) ++ r) := by
  rw [serializeIdent.eq_def]; dsimp only
  by_cases h : Digit c
  · rw [if_pos h, List.append_assoc, asCodePoint_append]; exact .inr (valid_codePoint _ _)
  · rw [if_neg h, if_neg hm, List.flatMap_cons, List.append_assoc]
    exact good_char h hm _

theorem ser_dash {d : Nat} {v : List Nat} (r : List Nat) (hd : d ≠ 0x2D) :
    ∃ s, serializeIdent (0x2D :: d :: v) ++ r = 0x2D :: s ∧ Good s := by
  rw [serializeIdent, if_neg (by decide), if_pos rfl]
  by_cases h : Digit d
  · rw [if_pos h]
    exact ⟨_, List.cons_append, by rw [List.append_assoc, asCodePoint_append]; exact .inr (valid_codePoint _ _)⟩
  · rw [if_neg h]
    exact ⟨_, List.cons_append, by rw [List.flatMap_cons, List.append_assoc]; exact good_char h hd _⟩

theorem ser_dashes (v r : List Nat) : serializeIdent (0x2D :: 0x2D :: v) ++ r = 0x2D :: 0x2D :: (v.flatMap identChar ++ r) := by
  rw [serializeIdent, if_neg (by decide), if_pos rfl]
  rw [if_neg (by decide), List.flatMap_cons]
  have : identChar 0x2D = [0x2D] := by decide
  rw [this]; rfl

theorem identChar_dash (t : List Nat) : identChar 0x2D ++ t = 0x2D :: t := by
  have : identChar 0x2D = [0x2D] := by decide
  rw [this]; rfl

/-- A serialized identifier looks like one. -/
theorem ser_starts {v : List Nat} (hv : v ≠ []) (r : List Nat) : startsIdent (serializeIdent v ++ r) = true := by
  cases v with
  | nil => exact absurd rfl hv
  | cons c v =>
    by_cases hm : c = 0x2D
    · subst hm
      cases v with
      | nil => rfl
      | cons d v =>
        by_cases hd : d = 0x2D
        · subst hd; rw [ser_dashes]; rfl
        · obtain ⟨s, e, hs⟩ := ser_dash (v := v) r hd
          rw [e]; exact dash_ident (good_ident hs)
    · exact good_ident (ser_good r hm)

theorem ser_head {v : List Nat} (hv : v ≠ []) (r : List Nat) : consumeComments (serializeIdent v ++ r) = serializeIdent v ++ r := by
  have hne : ∀ s : List Nat, ¬ [0x2F] <+: s → consumeComments s = s := by
    intro s hs
    rw [consumeComments.eq_def]
    split
    · rename_i a b t
      rw [if_neg]
      rintro ⟨rfl, -⟩
      exact hs ⟨b :: t, rfl⟩
    · rfl
  apply hne
  have h := ser_starts hv r
  rintro ⟨t, e⟩
  rw [← e] at h
  cases h

/-- Where a serialized identifier is read as an identifier. -/
theorem at_ser {v : List Nat} (hv : v ≠ []) (r : List Nat) (hd : ¬ TwoDashes v) :
    tokenAt (serializeIdent v ++ r) = consumeIdentLike (serializeIdent v ++ r) := by
  cases v with
  | nil => exact absurd rfl hv
  | cons c v =>
    by_cases hm : c = 0x2D
    · subst hm
      cases v with
      | nil =>
        have : serializeIdent [0x2D] ++ r = 0x5C :: 0x2D :: r := rfl
        rw [this]; exact at_good (.inr rfl)
      | cons d v =>
        by_cases h : d = 0x2D
        · subst h
          rw [ser_dashes]
          cases v with
          | nil => exact absurd ⟨[], rfl, by simp⟩ hd
          | cons e v =>
            have he : ¬ Digit e := fun he => hd ⟨e :: v, rfl, by simpa using he⟩
            rw [List.flatMap_cons, List.append_assoc]
            by_cases h : e = 0x2D
            · subst h
              rw [identChar_dash]
              refine at_dash rfl ?_ rfl
              rw [cdc_iff]; rintro ⟨t, h⟩; simp at h
            · have hg := good_char he h (v.flatMap identChar ++ r)
              obtain ⟨x, y, exy, -, -, -, -, h5, -⟩ := good_cons hg
              refine at_dash (good_dash_number hg) ?_ (dash_ident (good_ident hg))
              rw [cdc_iff]; rintro ⟨t, h⟩
              rw [exy] at h
              simp only [List.cons.injEq, true_and] at h
              exact h5 h.1
        · obtain ⟨s, e, hs⟩ := ser_dash (v := v) r h
          rw [e]
          refine at_dash (good_number hs) ?_ (good_ident hs)
          rw [cdc_iff]; rintro ⟨t, rfl⟩
          obtain ⟨x, y, exy, -, -, h5, -⟩ := good_cons hs
          simp only [List.cons.injEq] at exy
          exact h5 exy.1.symm
    · exact at_good (ser_good r hm)

/-- Two hyphens and nothing else or a digit. -/
theorem at_twoDashes {v r : List Nat} (hd : TwoDashes v) (hr : Stops r) (hc : ¬ Cdc <+: serializeIdent v ++ r) :
    ∃ r' t, tokenAt (serializeIdent v ++ r) = some (r', t) ∧ ∀ x, t ≠ .ident x := by
  obtain ⟨t, rfl, ht⟩ := hd
  rw [ser_dashes] at hc ⊢
  generalize hs : t.flatMap identChar ++ r = s at hc ⊢
  show ∃ r' t, onMinus (0x2D :: s) = some (r', t) ∧ _
  by_cases hn : startsNumber (0x2D :: s) = true
  · have hn' : ¬ StartsNumber (0x2D :: 0x2D :: s) := by rw [← startsNumber_iff]; intro h; cases h
    rw [onMinus.eq_def, if_pos hn, sign_zero (.inr rfl) ((startsNumber_iff _).mp hn) hn']
    exact ⟨_, _, rfl, by simp⟩
  · rw [minus_eq hn hc, if_neg]
    · exact ⟨_, _, rfl, by simp⟩
    · intro hi
      cases t with
      | nil =>
        rw [List.flatMap_nil, List.nil_append] at hs
        subst hs
        rw [startsIdent.eq_def] at hi; dsimp only at hi
        rw [if_pos rfl] at hi
        cases r with
        | nil => cases hi
        | cons a r =>
          have h1 := hr.1
          rw [starts_cons, ← identCp_iff] at h1
          dsimp only at hi
          rw [Bool.or_eq_true, Bool.or_eq_true, beq_iff_eq] at hi
          rcases hi with (hi | hi) | hi
          · simp [isIdentCp, hi] at h1
          · simp [isIdentCp, hi] at h1
          · exact hr.2 (validEscape_sound hi)
      | cons d t =>
        have hd := ht d rfl
        obtain ⟨h0, -⟩ := digit_small hd
        have hx : identChar d = [d] := by
          unfold identChar
          rw [if_neg h0, if_neg (by unfold Control; unfold Digit at hd; omega), if_pos (.inr (.inl hd))]
        rw [List.flatMap_cons, hx] at hs
        subst hs
        apply hn
        rw [startsNumber.eq_def]; dsimp only
        rw [if_pos (by omega)]
        simp [(digit_iff d).mpr hd]

theorem identLike_of {s r v : List Nat} (h : consumeIdent s = some (r, v)) (hr : ¬ Starts (· = 0x28) r) :
    consumeIdentLike s = if r = [] ∧ IsUrl v then none else some (r, .ident v) := by
  unfold consumeIdentLike
  rw [h]; dsimp only
  rw [isUrl_match]; dsimp only
  by_cases hu : IsUrl v
  · rw [decide_eq_true hu]
    cases r with
    | nil => simp [hu]
    | cons c r =>
      rw [starts_cons] at hr
      simp [hr]
  · rw [decide_eq_false hu]
    cases r with
    | nil => simp [hu]
    | cons c r =>
      rw [starts_cons] at hr
      simp [hr]

theorem str_char {c : Nat} {t v r : List Nat} {b : Bool} (h : Str 0x22 t v b r) :
    Str 0x22 (stringChar c ++ t) ((if c = 0 then 0xFFFD else c) :: v) b r := by
  unfold stringChar
  by_cases h0 : c = 0
  · rw [if_pos h0, if_pos h0]
    exact .cp (by decide) (by unfold Newline; decide) (by decide) h
  rw [if_neg h0, if_neg h0]
  by_cases h1 : Control c
  · rw [if_pos h1, asCodePoint_append]
    obtain ⟨-, h2⟩ := control_small h1
    obtain ⟨x, y, e, hn⟩ := hexText_head c
    exact .esc (by rw [e]; simp) (by rw [e]; simpa [Newline] using hn) (hex_escape h0 h2 t) h
  rw [if_neg h1]
  have hn : ¬ Newline c := by unfold Newline; unfold Control at h1; omega
  by_cases h2 : c = 0x22 ∨ c = 0x5C
  · rw [if_pos h2]
    refine .esc (by simp) (by simpa using hn) (plain_escape ?_ t) h
    rw [← hex_iff]
    rcases h2 with rfl | rfl <;> decide
  · rw [if_neg h2]
    exact .cp (by omega) hn (by omega) h

theorem str_back (v r : List Nat) : Str 0x22 (v.flatMap stringChar ++ 0x22 :: r) (withoutNul v) true r := by
  induction v with
  | nil => exact .close
  | cons c v ih =>
    rw [List.flatMap_cons, List.append_assoc]
    exact str_char ih

end Verif.Proof.CssTok
