import Verif.Proof.HtmlInput
/-
Properties C53, C57, C58, C59: HTML input stream.
-/
namespace Verif.Props.HtmlInput
open Verif.Model.HtmlInput Verif.Model.Infra Verif.Spec.Infra Verif.Spec.HtmlInput Verif.Proof.HtmlInput

/-- C53. Pushing the code points one by one and then the end of file delivers exactly the newline-normalized text. -/
theorem C53_newlines (s : List Nat) : delivered (pushAll false s) = normNL s := by
  have gen : ∀ s, delivered (pushAll false s) = normNL s ∧ delivered (pushAll true s) = normNL (13 :: s) := by
    intro s
    induction s with
    | nil => exact ⟨by simp [pushAll, pushEof, delivered, normNL], by simp [pushAll, pushEof, delivered, normNL]⟩
    | cons c s ih =>
      simp only [pushAll, delivered_append, push_delivered, push_state, if_true, Bool.false_eq_true, if_false]
      by_cases h : c = 13
      · subst h
        simp only [decide_true, if_true, true_or, ih.2]
        exact ⟨by simp, by rw [normNL_cr_cons _ _ (by decide)]; rfl⟩
      · simp only [h, decide_false, if_false, ih.1, false_or]
        refine ⟨by rw [normNL_other _ _ h]; rfl, ?_⟩
        by_cases h2 : c = 10
        · subst h2; simp [normNL]
        · rw [if_neg h2, normNL_cr_cons _ _ h2, normNL_other _ _ h]; rfl
  exact (gen s).1

example : delivered (pushAll false [0x61, 13, 10, 13, 13, 0x62, 13]) = [0x61, 10, 10, 10, 0x62, 10] := by decide

/-- C53, delivery does not depend on how the text is cut: the state after a prefix decides the rest. -/
theorem C53_no_cr_left (s : List Nat) : 13 ∉ delivered (pushAll false s) := by
  rw [C53_newlines]
  fun_induction normNL s with
  | case1 => simp
  | case2 s ih => simpa using ih
  | case3 s _ ih => simpa using ih
  | case4 c s h1 h2 ih =>
    simp only [List.mem_cons, not_or]
    refine ⟨?_, ih⟩
    exact fun h => h2 h.symm

/-- C57. Every offending code point is reported exactly once with its own error, in order, and nothing else is. -/
theorem C57_errors (s : List Nat) : Reports s (errors (pushAll false s)) := by
  have gen : ∀ cr, Reports s (errors (pushAll cr s)) := by
    induction s with
    | nil => intro cr; cases cr <;> exact .nil
    | cons c s ih =>
      intro cr
      simp only [pushAll, errors_append, push_errors]
      have hs : isSurrogate c = true ↔ 0xD800 ≤ c ∧ c ≤ 0xDFFF := by simp [isSurrogate]
      have hn := nonchar_iff c
      have hk : (!(isAsciiWhiteSpace c || c == 0) && isControl c) = true ↔
          (c ≤ 0x1F ∨ (0x7F ≤ c ∧ c ≤ 0x9F)) ∧ ¬ IsWs c ∧ c ≠ 0 := by
        rw [← ws_iff]
        simp only [Bool.and_eq_true, Bool.not_eq_true', Bool.or_eq_false_iff, isControl, isC0Control, Bool.or_eq_true,
          decide_eq_true_eq, Bool.not_eq_true, beq_eq_false_iff_ne]
        constructor
        · rintro ⟨⟨a, b⟩, c⟩; exact ⟨c, a, b⟩
        · rintro ⟨c, a, b⟩; exact ⟨⟨a, b⟩, c⟩
      by_cases h1 : 0xD800 ≤ c ∧ c ≤ 0xDFFF
      · have e2 : ¬ IsNonchar c := by unfold IsNonchar; omega
        have e3 : ¬ ((c ≤ 0x1F ∨ (0x7F ≤ c ∧ c ≤ 0x9F)) ∧ ¬ IsWs c ∧ c ≠ 0) := by omega
        rw [if_pos (hs.mpr h1), if_neg (fun h => e2 (hn.mp h)), if_neg (fun h => e3 (hk.mp h))]
        refine .bad _ _ _ _ (.surrogate c h1.1 h1.2) ?_ (ih _)
        intro e' he'
        cases he' with
        | surrogate => rfl
        | nonchar h => exact absurd h e2
        | control a b d => exact absurd ⟨a, b, d⟩ e3
      · by_cases h2 : IsNonchar c
        · have e3 : ¬ ((c ≤ 0x1F ∨ (0x7F ≤ c ∧ c ≤ 0x9F)) ∧ ¬ IsWs c ∧ c ≠ 0) := by unfold IsNonchar at h2; omega
          rw [if_neg (fun h => h1 (hs.mp h)), if_pos (hn.mpr h2), if_neg (fun h => e3 (hk.mp h))]
          refine .bad _ _ _ _ (.nonchar c h2) ?_ (ih _)
          intro e' he'
          cases he' with
          | surrogate a b => exact absurd ⟨a, b⟩ h1
          | nonchar => rfl
          | control a b d => exact absurd ⟨a, b, d⟩ e3
        · by_cases h3 : ((c ≤ 0x1F ∨ (0x7F ≤ c ∧ c ≤ 0x9F)) ∧ ¬ IsWs c ∧ c ≠ 0)
          · rw [if_neg (fun h => h1 (hs.mp h)), if_neg (fun h => h2 (hn.mp h)), if_pos (hk.mpr h3)]
            refine .bad _ _ _ _ (.control c h3.1 h3.2.1 h3.2.2) ?_ (ih _)
            intro e' he'
            cases he' with
            | surrogate a b => exact absurd ⟨a, b⟩ h1
            | nonchar h => exact absurd h h2
            | control => rfl
          · rw [if_neg (fun h => h1 (hs.mp h)), if_neg (fun h => h2 (hn.mp h)), if_neg (fun h => h3 (hk.mp h))]
            refine .clean _ _ _ ?_ (ih _)
            intro e' he'
            cases he' with
            | surrogate a b => exact h1 ⟨a, b⟩
            | nonchar h => exact h2 h
            | control a b d => exact h3 ⟨a, b, d⟩
  exact gen false

example : errors (pushAll false [0x61, 0xD800, 1, 13, 0xFFFE, 0]) = [.surrogate, .control, .noncharacter] := by decide

/-- C58. `reconsume()` directly after `consume()` gives the character (or the end of file) back: consuming again returns
the same value and leads to the same buffer, and characters come out in the order they are buffered. -/
theorem C58_reconsume (s s1 : Stream) (v : Nat) (hs : s.eofConsumed = false) (h : consume s = some (s1, v)) :
    (reconsume s1).c = s.c ∧ (reconsume s1).eof = s.eof ∧ (reconsume s1).eofConsumed = false ∧
      consume (reconsume s1) = some (s1, v) := by
  unfold consume at h
  split at h
  · rename_i hc
    simp only [Option.some.injEq, Prod.mk.injEq] at h
    obtain ⟨rfl, rfl⟩ := h
    simp only [Bool.and_eq_true] at hc
    simp [reconsume, consume, hc]
  · rename_i hc
    split at h
    · cases h
    · rename_i c cs e
      simp only [Option.some.injEq, Prod.mk.injEq] at h
      obtain ⟨rfl, rfl⟩ := h
      simp [reconsume, consume, hs, e]

example : consume ⟨[1, 2], 0, false, false⟩ = some (⟨[2], 1, false, false⟩, 1) := by decide

theorem C58_consume_n (s : Stream) (n : Nat) (h : n ≤ s.c.length) :
    ∃ s', consumeN s n = some s' ∧ s'.c = s.c.drop n ∧ s'.eof = s.eof ∧ s'.eofConsumed = s.eofConsumed := by
  induction n generalizing s with
  | zero => exact ⟨s, rfl, by simp, rfl, rfl⟩
  | succ n ih =>
    cases hc : s.c with
    | nil => simp [hc] at h
    | cons c cs =>
      obtain ⟨s', a, b, d, e⟩ := ih { s with c := cs, cur := c } (by simp [hc] at h; simpa using h)
      exact ⟨s', by simp [consumeN, consume, hc, a], by simp [b], d, e⟩

/-- C58. Without characters and before the end of file, `consume()` is undefined. -/
theorem C58_consume_empty_ub (s : Stream) (h : s.c = []) (he : s.eof = false) : consume s = none := by
  simp [consume, h, he]

/-- C58. `match` answers true exactly when the label is a prefix of the text that lies ahead (starting with the current
character when asked to), up to ASCII case when asked to. An empty label together with the current character is
undefined. -/
theorem C58_match (s : Stream) (label : List Nat) (withCurrent ci : Bool) (hl : withCurrent = true → label ≠ []) :
    ∃ b, matchLabel s label withCurrent ci = some b ∧
      (b = true ↔ label <+: ((if withCurrent then [s.cur] else []) ++ s.c).map fun c => if ci then lower c else c) := by
  cases withCurrent with
  | false => exact ⟨_, rfl, by rw [matchLoop_iff]; simp⟩
  | true =>
    cases label with
    | nil => exact absurd rfl (hl rfl)
    | cons l ls =>
      simp only [matchLabel, if_true, foldCase_eq]
      by_cases h : (if ci then lower s.cur else s.cur) = l
      · rw [if_neg (by simpa using h)]
        refine ⟨_, rfl, ?_⟩
        rw [matchLoop_iff]; simp [h]
      · rw [if_pos (by simpa using h)]
        refine ⟨_, rfl, ?_⟩
        simp only [Bool.false_eq_true, false_iff]
        intro hp
        have := List.cons_prefix_cons.mp (by simpa using hp)
        exact h this.1.symm

theorem C58_match_empty_ub (s : Stream) (ci : Bool) : matchLabel s [] true ci = none := rfl

example : matchLabel ⟨[0x6F, 0x43], 0x44, false, false⟩ [0x64, 0x6F, 0x63] true true = some true := by decide

/-- C59, full statement: `fill(n)` tells whether `n` characters are buffered (or no more will come). It is false. -/
def C59_statement : Prop := ∀ (s : Stream) (n : Nat), fill s n = true ↔ (s.eof = true ∨ n ≤ s.c.length)

/-- C59, partial: right as long as no more than `n` characters are buffered. Missing: buffers with more, where `fill` says
no. -/
theorem C59_fill_partial (s : Stream) (n : Nat) (h : s.c.length ≤ n) :
    fill s n = true ↔ (s.eof = true ∨ n ≤ s.c.length) := by
  simp only [fill, Bool.or_eq_true, beq_iff_eq]
  constructor
  · rintro (h | h)
    · exact Or.inl h
    · exact Or.inr (by omega)
  · rintro (h | h)
    · exact Or.inl h
    · exact Or.inr (by omega)

theorem C59_more_is_refused (s : Stream) (n : Nat) (h : n < s.c.length) (he : s.eof = false) : fill s n = false := by
  simp only [fill, he, Bool.false_or, beq_eq_false_iff_ne]; omega

theorem C59_statement_false : ¬ C59_statement := by
  intro h; exact absurd ((h ⟨[1, 2, 3], 0, false, false⟩ 2).mpr (Or.inr (by decide))) (by decide)

example : fill ⟨[1, 2], 0, false, false⟩ 2 = true := by decide


end Verif.Props.HtmlInput
