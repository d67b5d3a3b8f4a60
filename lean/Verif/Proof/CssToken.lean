import Verif.Proof.CssUrl
namespace Verif.Proof.CssTok
open Verif.Model.Infra Verif.Model.Unicode Verif.Model.Coder Verif.Model.Percent Verif.Model.Host Verif.Model.CssTok
open Verif.Spec Verif.Spec.Infra Verif.Spec.Percent Verif.Spec.Host Verif.Spec.CssTok

/-! ### Identifier-like tokens -/

theorem ci32 (s t : List Nat) :
    isAsciiCaseInsensitiveMatch .c32 .c32 s t = some (decide (s.map Verif.Spec.Infra.lower = t.map Verif.Spec.Infra.lower)) := by
  have hl : ∀ c, (if isAsciiUpperAlpha c = true then c + 0x20 else c) = Verif.Spec.Infra.lower c := by
    intro c; unfold isAsciiUpperAlpha Verif.Spec.Infra.lower; simp
  induction s generalizing t with
  | nil =>
    rw [isAsciiCaseInsensitiveMatch]
    cases t <;> simp
  | cons c s ih =>
    rw [isAsciiCaseInsensitiveMatch]
    cases t with
    | nil => simp
    | cons d t =>
      simp only [toCodePoint, toCodePoint32, List.isEmpty_cons, Bool.or_self, Bool.false_eq_true, if_false, hl]
      split
      · rename_i h; simp [h]
      · rename_i h
        rw [ih]
        rw [not_not] at h
        simp [h]

theorem isUrl_match (v : List Nat) : isAsciiCaseInsensitiveMatch .c32 .c32 v urlName = some (decide (IsUrl v)) := by
  rw [ci32]
  have : urlName.map Verif.Spec.Infra.lower = codes "url" := by decide
  rw [this]; rfl

theorem pairs_spec (p : Nat) (s : List Nat) : ∃ w, s = w ++ (skipWsPairs p s).2 ∧ (∀ c ∈ w, Ws c) ∧ (w ≠ [] → Starts Ws (skipWsPairs p s).2) ∧
    (¬ ∃ a b r, (skipWsPairs p s).2 = a :: b :: r ∧ Ws a ∧ Ws b) ∧ (skipWsPairs p s).1 :: (skipWsPairs p s).2 <:+ p :: s := by
  induction s generalizing p with
  | nil => exact ⟨[], rfl, by simp, by simp, by rintro ⟨a, b, r, h, -⟩; simp [skipWsPairs] at h, List.suffix_refl _⟩
  | cons a s ih =>
    cases s with
    | nil => exact ⟨[], rfl, by simp, by simp, by rintro ⟨a, b, r, h, -⟩; simp [skipWsPairs] at h, List.suffix_refl _⟩
    | cons b s =>
      rw [skipWsPairs]
      split
      · rename_i h
        rw [Bool.and_eq_true, ws_iff, ws_iff] at h
        obtain ⟨w, h1, h2, h3, h4, h5⟩ := ih a
        refine ⟨a :: w, by rw [List.cons_append, ← h1], ?_, fun _ => ?_, h4, h5.trans (List.suffix_cons _ _)⟩
        · intro c hc
          rcases List.mem_cons.mp hc with rfl | hc
          · exact h.1
          · exact h2 c hc
        · by_cases hw : w = []
          · subst hw
            rw [List.nil_append] at h1
            rw [← h1, starts_cons]; exact h.2
          · exact h3 hw
      · rename_i h
        rw [Bool.and_eq_true, ws_iff, ws_iff] at h
        refine ⟨[], rfl, by simp, by simp, ?_, List.suffix_refl _⟩
        rintro ⟨a', b', r, e, hab⟩
        injection e with e1 e2
        injection e2 with e2 e3
        subst e1 e2
        exact h hab

theorem quoteAhead_iff (r : List Nat) : quoteAhead r = true ↔ Starts Quote r ∨ ∃ c r', r = c :: r' ∧ Ws c ∧ Starts Quote r' := by
  unfold quoteAhead
  split
  · simp
  · rename_i a
    simp only [Bool.or_eq_true, beq_iff_eq, starts_cons]
    constructor
    · intro h; exact .inl h
    · rintro (h | ⟨c, r', h, -, h'⟩)
      · exact h
      · injection h with _ h; subst h; simp at h'
  · rename_i a b r
    simp only [Bool.or_eq_true, Bool.and_eq_true, beq_iff_eq, starts_cons, ws_iff]
    constructor
    · rintro (h | ⟨h1, h2⟩)
      · exact .inl h
      · exact .inr ⟨a, b :: r, rfl, h1, by rw [starts_cons]; exact h2⟩
    · rintro (h | ⟨c, r', h, h1, h2⟩)
      · exact .inl h
      · injection h with h h'
        subst h h'
        rw [starts_cons] at h2
        exact .inr ⟨h1, h2⟩

theorem quoted_iff (p : Nat) (s : List Nat) : quoteAhead (skipWsPairs p s).2 = true ↔ Quoted s := by
  obtain ⟨w, h1, h2, h3, h4, -⟩ := pairs_spec p s
  generalize (skipWsPairs p s).2 = r at *
  rw [quoteAhead_iff]
  constructor
  · rintro (h | ⟨c, r', rfl, hc, h⟩)
    · exact ⟨w, r, h1, h2, h⟩
    · refine ⟨w ++ [c], r', by simp [h1], ?_, h⟩
      intro x hx
      rcases List.mem_append.mp hx with hx | hx
      · exact h2 x hx
      · rw [List.mem_singleton.mp hx]; exact hc
  · rintro ⟨w', r', e, hw', hq⟩
    have hnw : ¬ Starts Ws r' := by
      obtain ⟨x, r'', rfl, hx⟩ := hq
      rw [starts_cons]; unfold Ws Quote at *; omega
    rw [h1] at e
    cases r with
    | nil =>
      exfalso
      obtain ⟨x, r'', rfl, hx⟩ := hq
      have := h2 x (by rw [List.append_nil] at e; rw [e]; simp)
      rw [starts_cons] at hnw
      exact hnw this
    | cons a r =>
      by_cases ha : Ws a
      · right
        have hr : ¬ Starts Ws r := by
          rintro ⟨b, r2, rfl, hb⟩
          exact h4 ⟨a, b, r2, rfl, ha, hb⟩
        have e' : (w ++ [a]) ++ r = w' ++ r' := by simpa using e
        obtain ⟨-, rfl⟩ := ws_split e' (by
          intro x hx
          rcases List.mem_append.mp hx with hx | hx
          · exact h2 x hx
          · rw [List.mem_singleton.mp hx]; exact ha) hw' hr hnw
        exact ⟨a, r, rfl, ha, hq⟩
      · left
        obtain ⟨-, rfl⟩ := ws_split e h2 hw' (by rw [starts_cons]; exact ha) hnw
        exact hq

/-- `consume_ident_like_token` always returns unless the name is `url` and the text ends. -/
theorem identLike_total (s : List Nat) (hs : startsIdent s = true) :
    (∃ r t, consumeIdentLike s = some (r, t) ∧ r <:+ s ∧ r.length < s.length ∧ t ≠ .eof) ∨
    (consumeIdentLike s = none ∧ ∃ v, consumeIdent s = some ([], v) ∧ IsUrl v) := by
  have hstart : Starts IdentCp s ∨ validEscape s = true := by
    cases s with
    | nil => cases hs
    | cons a s =>
      rw [startsIdent.eq_def] at hs
      dsimp only at hs
      rw [starts_cons]
      split at hs
      · rename_i h; exact .inl (.inr (.inr h))
      · split at hs
        · rename_i h; exact .inl (.inl ((identStart_iff a).mp h))
        · split at hs
          · exact .inr hs
          · cases hs
  obtain ⟨r, v, h1, h2, h3⟩ := ident_total s
  have h4 := h3 hstart
  unfold consumeIdentLike
  rw [h1]; dsimp only
  rw [isUrl_match]; dsimp only
  by_cases hu : IsUrl v
  · rw [decide_eq_true hu]
    cases r with
    | nil => exact .inr ⟨rfl, v, rfl, hu⟩
    | cons c r =>
      left
      have hsuf : r <:+ s := (List.suffix_cons _ _).trans h2
      dsimp only
      split
      · rw [if_pos rfl]
        obtain ⟨w, p1, p2, p3, p4, p5⟩ := pairs_spec c r
        generalize skipWsPairs c r = P at *
        obtain ⟨p, r1⟩ := P
        dsimp only at *
        split
        · refine ⟨_, _, rfl, p5.trans h2, ?_, by simp⟩
          have := p5.length_le
          simp only [List.length_cons] at *
          omega
        · obtain ⟨r', t, u1, u2, -, u4⟩ := urlLoop_spec [] (r1.dropWhile isWs)
          have hs1 : r' <:+ r := u2.trans ((dropWs_suffix r1).trans ⟨w, p1.symm⟩)
          refine ⟨r', t, u1, hs1.trans hsuf, ?_, ?_⟩
          · have := hs1.length_le
            simp only [List.length_cons] at *
            omega
          · rcases u4 with ⟨v, rfl⟩ | rfl <;> simp
      · exact ⟨_, _, rfl, h2, h4, by simp⟩
  · rw [decide_eq_false hu]
    left
    cases r with
    | nil => exact ⟨_, _, rfl, h2, h4, by simp⟩
    | cons c r =>
      dsimp only
      split
      · rw [if_neg (by simp)]
        refine ⟨_, _, rfl, (List.suffix_cons _ _).trans h2, ?_, by simp⟩
        simp only [List.length_cons] at *
        omega
      · exact ⟨_, _, rfl, h2, h4, by simp⟩

theorem identLike_ident {s v r : List Nat} (hT : NoTail s) (h : Name s v r) (hr : ¬ Starts (· = 0x28) r) (hu : r = [] → ¬ IsUrl v) :
    consumeIdentLike s = some (r, .ident v) := by
  unfold consumeIdentLike
  rw [(ident_iff hT).mpr h]; dsimp only
  rw [isUrl_match]; dsimp only
  cases r with
  | nil => rw [decide_eq_false (hu rfl)]
  | cons c r =>
    rw [starts_cons] at hr
    cases decide (IsUrl v) <;> simp only [if_neg hr]

theorem identLike_function {s v r : List Nat} (hT : NoTail s) (h : Name s v (0x28 :: r)) (hu : ¬ IsUrl v) :
    consumeIdentLike s = some (r, .function v) := by
  unfold consumeIdentLike
  rw [(ident_iff hT).mpr h]; dsimp only
  rw [isUrl_match, decide_eq_false hu]; dsimp only
  rw [if_pos rfl, if_neg (by simp)]

theorem identLike_url {s v w r : List Nat} (hT : NoTail s) (h : Name s v (0x28 :: w ++ r)) (hu : IsUrl v) (hw : ∀ c ∈ w, Ws c)
    (hr : ¬ Starts Ws r) (hq : ¬ Starts Quote r) (he : ¬ ∃ v r', UrlText r v (0x5C :: r') ∧ ValidEscape (0x5C :: r')) :
    ∃ r' t, consumeIdentLike s = some (r', t) ∧ Url r (tok t) r' := by
  unfold consumeIdentLike
  rw [(ident_iff hT).mpr h]; dsimp only
  rw [isUrl_match, decide_eq_true hu]
  dsimp only [List.cons_append]
  rw [if_pos rfl, if_pos rfl]
  have hnq : ¬ Quoted (w ++ r) := by
    rintro ⟨w', r', e, h1, h2⟩
    have hnw : ¬ Starts Ws r' := by
      obtain ⟨x, r'', rfl, hx⟩ := h2
      rw [starts_cons]; unfold Ws Quote at *; omega
    obtain ⟨-, rfl⟩ := ws_split e hw h1 hr hnw
    exact hq h2
  rw [← quoted_iff 0x28] at hnq
  obtain ⟨w', p1, p2, p3, p4, p5⟩ := pairs_spec 0x28 (w ++ r)
  generalize skipWsPairs 0x28 (w ++ r) = P at *
  obtain ⟨p, r1⟩ := P
  dsimp only at *
  rw [if_neg hnq]
  have : r1.dropWhile isWs = r := by
    have e := ws_complete hw hr
    rw [p1, List.dropWhile_append_of_pos (fun c hc => (ws_iff c).mpr (p2 c hc))] at e
    exact e
  unfold consumeUrl
  rw [this]
  obtain ⟨r', t, u1, u2, u3, -⟩ := urlLoop_spec [] r
  obtain ⟨t', h5, h6⟩ := u3 he
  rw [before_nil] at h6
  exact ⟨r', t, u1, h6 ▸ h5⟩

/-! ### Numeric tokens -/

theorem numeric_value {s r : List Nat} {q : ℚ} {b : Bool} (h : NumberAt s q b r) (hq : ¬ Quirk s) :
    ∃ v, consumeNumber s = some (r, v, b) ∧ numValue v = q := by
  have h0 := h
  obtain ⟨t, rfl, h2, h3⟩ := h
  obtain ⟨t', r', q', b', e1, e2, e3, e4, e5⟩ := number_spec ⟨t, q, b, h2, ⟨r, rfl⟩⟩
  obtain ⟨rfl, rfl, rfl⟩ := numberAt_det h0 ⟨t', e1, e3, e4⟩
  rcases e5 with e5 | ⟨-, e5⟩
  · exact e5
  · exact absurd (Quirk.large e3 ⟨_, e1.symm⟩ e4 e5) hq

theorem not_percent_ident {r : List Nat} : startsIdent (0x25 :: r) = false := rfl

theorem numeric_number {s r : List Nat} {q : ℚ} {b : Bool} (hT : NoTail s) (h : NumberAt s q b r) (hq : ¬ Quirk s)
    (h1 : ¬ StartsIdent r) (h2 : ¬ Starts (· = 0x25) r) : ∃ t, consumeNumeric s = some (r, t) ∧ tok t = .number q b := by
  obtain ⟨v, e, rfl⟩ := numeric_value h hq
  have hr : r <:+ s := by obtain ⟨t, rfl, -⟩ := h; exact List.suffix_append _ _
  unfold consumeNumeric
  rw [e]; dsimp only
  rw [if_neg (by rw [startsIdent_iff (hT.suffix hr)]; exact h1)]
  cases r with
  | nil => exact ⟨_, rfl, rfl⟩
  | cons c r =>
    rw [starts_cons] at h2
    dsimp only
    rw [if_neg h2]
    exact ⟨_, rfl, rfl⟩

theorem numeric_percentage {s r : List Nat} {q : ℚ} {b : Bool} (h : NumberAt s q b (0x25 :: r)) (hq : ¬ Quirk s) :
    ∃ t, consumeNumeric s = some (r, t) ∧ tok t = .percentage q := by
  obtain ⟨v, e, rfl⟩ := numeric_value h hq
  unfold consumeNumeric
  rw [e]
  exact ⟨_, rfl, rfl⟩

theorem numeric_dimension {s u v r : List Nat} {q : ℚ} {b : Bool} (hT : NoTail s) (h : NumberAt s q b u) (hq : ¬ Quirk s)
    (h1 : StartsIdent u) (h2 : Name u v r) : ∃ t, consumeNumeric s = some (r, t) ∧ tok t = .dimension q v b := by
  obtain ⟨x, e, rfl⟩ := numeric_value h hq
  have hu : NoTail u := hT.suffix (by obtain ⟨t, rfl, -⟩ := h; exact List.suffix_append _ _)
  unfold consumeNumeric
  rw [e]; dsimp only
  rw [if_pos ((startsIdent_iff hu).mpr h1), (ident_iff hu).mpr h2]
  exact ⟨_, rfl, rfl⟩

end Verif.Proof.CssTok
