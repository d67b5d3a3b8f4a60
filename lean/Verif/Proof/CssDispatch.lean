import Verif.Proof.CssToken
namespace Verif.Proof.CssTok
open Verif.Model.Infra Verif.Model.Unicode Verif.Model.Coder Verif.Model.Percent Verif.Model.Host Verif.Model.CssTok
open Verif.Spec Verif.Spec.Infra Verif.Spec.Percent Verif.Spec.Host Verif.Spec.CssTok

/-! ### Which branch of `consume_token` is taken -/

theorem at_digit {c : Nat} {r : List Nat} (h : Digit c) : tokenAt (c :: r) = consumeNumeric (c :: r) := by
  unfold Digit at h
  obtain ⟨h1, h2⟩ := h
  have : c = 0x30 ∨ c = 0x31 ∨ c = 0x32 ∨ c = 0x33 ∨ c = 0x34 ∨ c = 0x35 ∨ c = 0x36 ∨ c = 0x37 ∨ c = 0x38 ∨ c = 0x39 := by omega
  rcases this with rfl | rfl | rfl | rfl | rfl | rfl | rfl | rfl | rfl | rfl <;> rfl

theorem at_identStart {c : Nat} {r : List Nat} (h : IdentStart c) : tokenAt (c :: r) = consumeIdentLike (c :: r) := by
  have h' := (identStart_iff c).mpr h
  unfold IdentStart Letter at h
  have hw : ¬ isWs c = true := by rw [ws_iff]; unfold Ws; omega
  have hd : ¬ isDigit c = true := by rw [digit_iff]; unfold Digit; omega
  rw [tokenAt, if_neg hw]
  repeat rw [if_neg (by omega)]
  rw [if_pos h']

theorem number_sign {c : Nat} {r : List Nat} (hc : Signed c) (h : StartsNumber (c :: r)) : startsNumber r = true := by
  rw [← startsNumber_iff, startsNumber.eq_def] at h
  dsimp only at h
  rw [if_pos (show c = 0x2B ∨ c = 0x2D from hc)] at h
  split at h
  · cases h
  · rename_i b r
    rw [startsNumber.eq_def]
    dsimp only
    rw [Bool.or_eq_true, Bool.and_eq_true, beq_iff_eq, digit_iff] at h
    rcases h with h | ⟨rfl, h⟩
    · rw [if_neg (by unfold Digit at h; omega), if_neg (by unfold Digit at h; omega)]
      exact (digit_iff b).mpr h
    · rw [if_neg (by omega), if_pos rfl]
      split at h
      · cases h
      · exact h

theorem number_point {r : List Nat} (h : StartsNumber (0x2E :: r)) : startsNumber r = true := by
  rw [← startsNumber_iff, startsNumber.eq_def] at h
  dsimp only at h
  rw [if_neg (by omega), if_pos rfl] at h
  split at h
  · cases h
  · rename_i b r
    rw [startsNumber.eq_def]
    dsimp only
    have := (digit_iff b).mp h
    unfold Digit at this
    rw [if_neg (by omega), if_neg (by omega)]
    exact h

theorem at_number {s : List Nat} (h : StartsNumber s) : tokenAt s = consumeNumeric s := by
  cases s with
  | nil => rw [← startsNumber_iff] at h; cases h
  | cons c r =>
    by_cases h1 : c = 0x2B
    · subst h1
      have := number_sign (.inl rfl) h
      show (if startsNumber r then consumeNumeric (0x2B :: r) else some (r, .delim 0x2B)) = _
      rw [if_pos this]
    · by_cases h2 : c = 0x2D
      · subst h2
        have := number_sign (.inr rfl) h
        show onMinus r = _
        rw [onMinus.eq_def, if_pos this]
      · by_cases h3 : c = 0x2E
        · subst h3
          have := number_point h
          show (if startsNumber r then consumeNumeric (0x2E :: r) else some (r, .delim 0x2E)) = _
          rw [if_pos this]
        · rw [← startsNumber_iff, startsNumber.eq_def] at h
          dsimp only at h
          rw [if_neg (by omega), if_neg (by omega), digit_iff] at h
          exact at_digit h

theorem cdc_iff {r : List Nat} : Cdc <+: 0x2D :: r ↔ ∃ t, r = 0x2D :: 0x3E :: t := by
  constructor
  · rintro ⟨t, h⟩
    exact ⟨t, by have : 0x2D :: 0x2D :: 0x3E :: t = 0x2D :: r := h; injection this with _ h; exact h.symm⟩
  · rintro ⟨t, rfl⟩; exact ⟨t, rfl⟩

theorem minus_eq {r : List Nat} (h : ¬ startsNumber r = true) (hc : ¬ Cdc <+: 0x2D :: r) :
    onMinus r = if startsIdent r then consumeIdentLike (0x2D :: r) else some (r, .delim 0x2D) := by
  rw [onMinus.eq_def, if_neg h]
  rw [cdc_iff] at hc
  split
  · rename_i a b r'
    rw [if_neg]
    rintro ⟨rfl, rfl⟩
    exact hc ⟨_, rfl⟩
  · rfl

theorem dash_not_number {r : List Nat} (h : Starts (fun c => ¬ Digit c ∧ c ≠ 0x2E) r) : ¬ StartsNumber (0x2D :: r) := by
  obtain ⟨c, r, rfl, h1, h2⟩ := h
  rw [← startsNumber_iff, startsNumber.eq_def]
  dsimp only
  rw [if_pos (by simp)]
  rw [← digit_iff] at h1
  simp [h1, h2]

theorem at_ident {s : List Nat} (hT : NoTail s) (hq : ¬ Quirk s) (h : StartsIdent s) (hc : ¬ Cdc <+: s) :
    tokenAt s = consumeIdentLike s := by
  rcases h with ⟨c, r, rfl, h⟩ | ⟨r, rfl, h⟩ | ⟨r, rfl, h⟩
  · exact at_identStart h
  · have : validEscape (0x5C :: r) = true := (validEscape_iff hT).mpr ⟨r, rfl, h⟩
    show (if validEscape (0x5C :: r) then consumeIdentLike (0x5C :: r) else _) = _
    rw [if_pos this]
  · have hT' : NoTail r := hT.suffix (List.suffix_cons _ _)
    show onMinus r = _
    have hn : ¬ StartsNumber (0x2D :: r) := by
      apply dash_not_number
      rcases h with ⟨c, r, rfl, h⟩ | ⟨c, r, rfl, h⟩ | ⟨r, rfl, h⟩
      · rw [starts_cons]; unfold IdentStart Letter at h; unfold Digit; omega
      · rw [starts_cons, h]; unfold Digit; omega
      · rw [starts_cons]; unfold Digit; omega
    have hn' : ¬ startsNumber r = true := by
      intro h'
      exact hq (.number (.inr (.inl rfl)) hn ((startsNumber_iff r).mp h'))
    rw [minus_eq hn' hc, if_pos]
    rw [startsIdent_iff hT']
    rcases h with h | ⟨c, r, rfl, rfl⟩ | h
    · exact .inl h
    · by_contra hi
      exact hq (.dashes hc (by rw [← startsNumber_iff]; exact hn') hi)
    · exact .inr (.inl h)

/-- Away from the quirks the tokens of the standard are found. -/
theorem proper_complete {s r : List Nat} {t : Tok} (hT : NoTail s) (hq : ¬ Quirk s) (h : Proper s t r) :
    ∃ t', tokenAt s = some (r, t') ∧ tok t' = t := by
  cases h with
  | eof => exact ⟨_, rfl, rfl⟩
  | @whitespace w r h1 h2 h3 =>
    cases w with
    | nil => exact absurd rfl h1
    | cons c w =>
      have := ws_complete (w := w) (fun x hx => h2 x (by simp [hx])) h3
      rw [List.cons_append, tokenAt, if_pos ((ws_iff c).mpr (h2 c (by simp))), this]
      exact ⟨_, rfl, rfl⟩
  | @string q s v r h1 h2 =>
    have := string_iff h1 h2
    refine ⟨.string v, ?_, rfl⟩
    rcases h1 with rfl | rfl <;> exact this
  | @badString q s v r h1 h2 =>
    have := string_iff h1 h2
    refine ⟨.badString, ?_, rfl⟩
    rcases h1 with rfl | rfl <;> exact this
  | @hash s v r b h1 h2 h3 =>
    have hs : NoTail s := hT.suffix (List.suffix_cons _ _)
    show ∃ t', onHash s = some (r, t') ∧ _
    have hb : b = startsIdent s := by rw [Bool.eq_iff_iff, h3, startsIdent_iff hs]
    cases s with
    | nil => exact absurd Quirk.hash hq
    | cons d s =>
      have : (isIdentCp d || validEscape (d :: s)) = true := by
        rw [Bool.or_eq_true, identCp_iff, validEscape_iff hs]
        rcases h1 with h1 | h1
        · rw [starts_cons] at h1; exact .inl h1
        · exact .inr h1
      rw [onHash, if_pos this, (ident_iff hs).mpr h2]
      exact ⟨_, rfl, by rw [hb]; rfl⟩
  | @punct c t r h1 =>
    simp only [Verif.Spec.CssTok.punct, List.mem_cons, Prod.mk.injEq, List.not_mem_nil, or_false] at h1
    rcases h1 with ⟨rfl, rfl⟩ | ⟨rfl, rfl⟩ | ⟨rfl, rfl⟩ | ⟨rfl, rfl⟩ | ⟨rfl, rfl⟩ | ⟨rfl, rfl⟩ | ⟨rfl, rfl⟩ | ⟨rfl, rfl⟩ | ⟨rfl, rfl⟩ <;>
      exact ⟨_, rfl, rfl⟩
  | number h1 h2 h3 =>
    have hs : StartsNumber s := by obtain ⟨t, rfl, h, -⟩ := h1; exact ⟨t, _, _, h, ⟨_, rfl⟩⟩
    rw [at_number hs]
    exact numeric_number hT h1 hq h2 h3
  | percentage h1 =>
    have hs : StartsNumber s := by obtain ⟨t, rfl, h, -⟩ := h1; exact ⟨t, _, _, h, ⟨_, rfl⟩⟩
    rw [at_number hs]
    exact numeric_percentage h1 hq
  | dimension h1 h2 h3 =>
    have hs : StartsNumber s := by obtain ⟨t, rfl, h, -⟩ := h1; exact ⟨t, _, _, h, ⟨_, rfl⟩⟩
    rw [at_number hs]
    exact numeric_dimension hT h1 hq h2 h3
  | cdc => exact ⟨_, rfl, rfl⟩
  | cdo => exact ⟨_, rfl, rfl⟩
  | @atKeyword s v r h1 h2 =>
    have hs : NoTail s := hT.suffix (List.suffix_cons _ _)
    refine ⟨.atKeyword v, ?_, rfl⟩
    show (if startsIdent s then match consumeIdent s with | none => none | some (r', s) => some (r', Token.atKeyword s) else _) = _
    rw [if_pos ((startsIdent_iff hs).mpr h1), (ident_iff hs).mpr h2]
  | ident h1 h2 =>
    rw [at_ident hT hq h1.1 h1.2.1]
    refine ⟨_, identLike_ident hT h1.2.2 h2 ?_, rfl⟩
    rintro rfl hu
    exact hq (.urlEnd h1 hu)
  | function h1 h2 =>
    rw [at_ident hT hq h1.1 h1.2.1]
    exact ⟨_, identLike_function hT h1.2.2 h2, rfl⟩
  | @quoted s v w r h1 h2 h3 h4 h5 =>
    exfalso
    refine hq (.urlQuoted h1 h2 ?_)
    rcases h5 with h5 | ⟨c, r', rfl, h6, h7⟩
    · exact ⟨w, r, rfl, h3, h5⟩
    · refine ⟨w ++ [c], r', by simp, ?_, h7⟩
      intro x hx
      rcases List.mem_append.mp hx with hx | hx
      · exact h3 x hx
      · rw [List.mem_singleton.mp hx]; exact h6
  | url h1 h2 h3 h4 h5 h6 =>
    rw [at_ident hT hq h1.1 h1.2.1]
    obtain ⟨r', t', e1, e2⟩ := identLike_url hT h1.2.2 h2 h3 h4 h5 (fun ⟨v', r', hu, hv⟩ => hq (.urlEscape h1 h2 h3 h4 hu hv))
    obtain ⟨rfl, rfl⟩ := url_det h6 e2
    exact ⟨t', e1, rfl⟩

/-! ### There is a token -/

theorem proper_number {s : List Nat} (hT : NoTail s) (h : StartsNumber s) : ∃ t r, Proper s t r := by
  obtain ⟨t, r, q, b, rfl, -, h2, h3, -⟩ := number_spec h
  have hN : NumberAt (t ++ r) q b r := ⟨t, rfl, h2, h3⟩
  by_cases hi : StartsIdent r
  · obtain ⟨r', v, -, -, h4, -⟩ := identLoop_spec [] r
    exact ⟨_, _, .dimension hN hi (h4 (hT.suffix (List.suffix_append _ _)))⟩
  · by_cases hp : Starts (· = 0x25) r
    · obtain ⟨c, r', rfl, rfl⟩ := hp
      exact ⟨_, _, .percentage hN⟩
    · exact ⟨_, _, .number hN hi hp⟩

theorem proper_ident {s : List Nat} (hT : NoTail s) (hq : ¬ Quirk s) (h : StartsIdent s) (hc : ¬ Cdc <+: s) : ∃ t r, Proper s t r := by
  obtain ⟨r, v, -, -, h4, -⟩ := identLoop_spec [] s
  have hI : IdentLike s v r := ⟨h, hc, h4 hT⟩
  by_cases hp : Starts (· = 0x28) r
  · obtain ⟨c, r', rfl, rfl⟩ := hp
    by_cases hu : IsUrl v
    · obtain ⟨w, e, h1, h2⟩ := ws_sound r'
      have hI' : IdentLike s v (0x28 :: w ++ r'.dropWhile isWs) := by rw [List.cons_append, ← e]; exact hI
      have hnq : ¬ Starts Quote (r'.dropWhile isWs) := fun h => hq (.urlQuoted hI hu ⟨w, _, e, h1, h⟩)
      obtain ⟨r1, t1, -, e2⟩ := identLike_url hT hI'.2.2 hu h1 h2 hnq (fun ⟨v', r', h3, h4⟩ => hq (.urlEscape hI' hu h1 h2 h3 h4))
      exact ⟨_, _, .url hI' hu h1 h2 hnq e2⟩
    · exact ⟨_, _, .function hI hu⟩
  · exact ⟨_, _, .ident hI hp⟩

theorem delim_dispatch {c : Nat} {r : List Nat} (hw : ¬ isWs c = true) (hqu : ¬ (c = 0x22 ∨ c = 0x27))
    (p : c ≠ 0x28 ∧ c ≠ 0x29 ∧ c ≠ 0x2C ∧ c ≠ 0x3A ∧ c ≠ 0x3B ∧ c ≠ 0x5B ∧ c ≠ 0x5D ∧ c ≠ 0x7B ∧ c ≠ 0x7D)
    (h1 : c = 0x23 → onHash r = some (r, .delim c)) (h2 : c = 0x2B → ¬ startsNumber r = true)
    (h3 : c = 0x2D → onMinus r = some (r, .delim c)) (h4 : c = 0x2E → ¬ startsNumber r = true)
    (h5 : c = 0x3C → onLess r = (r, .delim c)) (h6 : c = 0x40 → ¬ startsIdent r = true)
    (h7 : c = 0x5C → ¬ validEscape (c :: r) = true) (h8 : ¬ isDigit c = true) (h9 : ¬ isIdentStart c = true) :
    tokenAt (c :: r) = some (r, .delim c) := by
  obtain ⟨p1, p2, p3, p4, p5, p6, p7, p8, p9⟩ := p
  rw [tokenAt, if_neg hw, if_neg hqu, if_neg p1, if_neg p2, if_neg p3, if_neg p4, if_neg p5, if_neg p6, if_neg p7, if_neg p8,
    if_neg p9, if_neg h8, if_neg h9]
  split
  · rename_i e; exact h1 e
  · split
    · rename_i e; rw [if_neg (h2 e)]
    · split
      · rename_i e; exact h3 e
      · split
        · rename_i e; rw [if_neg (h4 e)]
        · split
          · rename_i e; rw [h5 e]
          · split
            · rename_i e; rw [if_neg (h6 e)]
            · split
              · rename_i e; rw [if_neg (h7 e)]
              · rfl

theorem no_string {c : Nat} {r : List Nat} (h : ¬ ∃ t r', Proper (c :: r) t r') : ¬ (c = 0x22 ∨ c = 0x27) := by
  intro hc
  obtain ⟨r', v, b, h1, -, -⟩ := stringLoop_spec c hc [] r
  cases b with
  | true => exact h ⟨_, _, .string hc h1⟩
  | false => exact h ⟨_, _, .badString hc h1⟩

theorem no_ws {c : Nat} {r : List Nat} (h : ¬ ∃ t r', Proper (c :: r) t r') : ¬ isWs c = true := by
  intro hw
  obtain ⟨w, e, h1, h2⟩ := ws_sound r
  refine h ⟨.whitespace, r.dropWhile isWs, ?_⟩
  have : c :: r = (c :: w) ++ r.dropWhile isWs := by rw [List.cons_append, ← e]
  rw [this]
  refine .whitespace (by simp) ?_ h2
  intro x hx
  rcases List.mem_cons.mp hx with rfl | hx
  · exact (ws_iff _).mp hw
  · exact h1 x hx

theorem no_punct {c : Nat} {r : List Nat} (h : ¬ ∃ t r', Proper (c :: r) t r') :
    c ≠ 0x28 ∧ c ≠ 0x29 ∧ c ≠ 0x2C ∧ c ≠ 0x3A ∧ c ≠ 0x3B ∧ c ≠ 0x5B ∧ c ≠ 0x5D ∧ c ≠ 0x7B ∧ c ≠ 0x7D := by
  have hp : ∀ t, (c, t) ∉ punct := fun t ht => h ⟨_, _, .punct ht⟩
  refine ⟨?_, ?_, ?_, ?_, ?_, ?_, ?_, ?_, ?_⟩ <;> rintro rfl
  · exact hp .openParen (by decide)
  · exact hp .closeParen (by decide)
  · exact hp .comma (by decide)
  · exact hp .colon (by decide)
  · exact hp .semicolon (by decide)
  · exact hp .openSquare (by decide)
  · exact hp .closeSquare (by decide)
  · exact hp .openCurly (by decide)
  · exact hp .closeCurly (by decide)

theorem no_hash {r : List Nat} (hT : NoTail r) (hq : ¬ Quirk (0x23 :: r)) (h : ¬ ∃ t r', Proper (0x23 :: r) t r') :
    onHash r = some (r, .delim 0x23) := by
  cases r with
  | nil => exact absurd Quirk.hash hq
  | cons d r =>
    rw [onHash, if_neg]
    rw [Bool.or_eq_true, identCp_iff, validEscape_iff hT]
    intro hd
    obtain ⟨r', v, -, -, h4, -⟩ := identLoop_spec [] (d :: r)
    refine h ⟨_, _, .hash (b := decide (startsIdent (d :: r) = true)) (by rw [starts_cons]; exact hd) (h4 hT) ?_⟩
    rw [decide_eq_true_iff, startsIdent_iff hT]

theorem no_less {r : List Nat} (h : ¬ ∃ t r', Proper (0x3C :: r) t r') : onLess r = (r, .delim 0x3C) := by
  unfold onLess
  split
  · rename_i a b d r'
    rw [if_neg]
    rintro ⟨rfl, rfl, rfl⟩
    exact h ⟨.cdo, r', .cdo⟩
  · rfl

theorem no_minus {r : List Nat} (hT : NoTail r) (hc : ¬ Cdc <+: 0x2D :: r) (hn : ¬ startsNumber r = true)
    (hi : ¬ StartsIdent (0x2D :: r)) : onMinus r = some (r, .delim 0x2D) := by
  rw [minus_eq hn hc, if_neg]
  rw [startsIdent_iff hT]
  intro h'
  apply hi
  refine .inr (.inr ⟨r, rfl, ?_⟩)
  rcases h' with h' | h' | ⟨r', rfl, -⟩
  · exact .inl h'
  · exact .inr (.inr h')
  · exact .inr (.inl (by simp))

theorem no_digit {c : Nat} {r : List Nat} (hn : ¬ StartsNumber (c :: r)) : ¬ isDigit c = true := by
  intro h
  apply hn
  have h' := (digit_iff c).mp h
  rw [← startsNumber_iff, startsNumber.eq_def]
  dsimp only
  unfold Digit at h'
  rw [if_neg (by omega), if_neg (by omega)]
  exact h

theorem delim_complete {c : Nat} {r : List Nat} (hT : NoTail (c :: r)) (hq : ¬ Quirk (c :: r)) (h : ¬ ∃ t r', Proper (c :: r) t r') :
    tokenAt (c :: r) = some (r, .delim c) := by
  have hT' : NoTail r := hT.suffix (List.suffix_cons _ _)
  have hn : ¬ StartsNumber (c :: r) := fun h' => h (proper_number hT h')
  have hc : ¬ Cdc <+: c :: r := by
    rintro ⟨t, e⟩; exact h ⟨.cdc, t, by rw [← e]; exact .cdc⟩
  have hi : ¬ StartsIdent (c :: r) := fun h' => h (proper_ident hT hq h' hc)
  have hnum : (c = 0x2B ∨ c = 0x2D ∨ c = 0x2E) → ¬ startsNumber r = true := by
    intro hc h'
    exact hq (.number hc hn ((startsNumber_iff r).mp h'))
  refine delim_dispatch (no_ws h) (no_string h) (no_punct h) ?_ (fun e => hnum (.inl e)) ?_ (fun e => hnum (.inr (.inr e))) ?_ ?_ ?_
    (no_digit hn) ?_
  · rintro rfl; exact no_hash hT' hq h
  · rintro rfl; exact no_minus hT' hc (hnum (.inr (.inl rfl))) hi
  · rintro rfl; exact no_less h
  · rintro rfl
    rw [startsIdent_iff hT']
    intro h'
    obtain ⟨r', v, -, -, h4, -⟩ := identLoop_spec [] r
    exact h ⟨_, _, .atKeyword h' (h4 hT')⟩
  · rintro rfl
    rw [validEscape_iff hT]
    intro h'
    exact hi (.inr (.inl h'))
  · rw [identStart_iff]
    intro h'
    exact hi (.inl (by rw [starts_cons]; exact h'))

/-- Away from the quirks `consume_token` conforms. -/
theorem token_iff {s : List Nat} (hT : NoTail s) (hq : ¬ Quirk s) (t : Tok) (r : List Nat) :
    TokenAt s t r ↔ ∃ t', tokenAt s = some (r, t') ∧ tok t' = t := by
  constructor
  · rintro (h | ⟨h, c, rfl, rfl⟩)
    · exact proper_complete hT hq h
    · exact ⟨_, delim_complete hT hq h, rfl⟩
  · rintro ⟨t', e, rfl⟩
    by_cases h : ∃ t r, Proper s t r
    · obtain ⟨t, r', h⟩ := h
      obtain ⟨t'', e', rfl⟩ := proper_complete hT hq h
      rw [e] at e'
      simp only [Option.some.injEq, Prod.mk.injEq] at e'
      obtain ⟨rfl, rfl⟩ := e'
      exact .inl h
    · cases s with
      | nil => exact absurd ⟨_, _, .eof⟩ h
      | cons c r' =>
        rw [delim_complete hT hq h] at e
        simp only [Option.some.injEq, Prod.mk.injEq] at e
        obtain ⟨rfl, rfl⟩ := e
        exact .inr ⟨h, c, rfl, rfl⟩

end Verif.Proof.CssTok
