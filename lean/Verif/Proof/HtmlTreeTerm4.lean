import Verif.Proof.HtmlTreeTerm3

/-! Helper lemmas for C106: the end of the file. -/

namespace Verif.Proof.HtmlTree
open Verif.Model.HtmlTree

variable {tbl : List Nat → Bool} {re : Re} {k n : Nat} {s : S}

/-- The number of templates. -/
def tc (l : List Entry) : Nat := l.countP fun e => e.is .template

theorem tc_sublist {a b : List Entry} (h : a.Sublist b) : tc a ≤ tc b := h.countP_le

theorem tc_popUntil {l : List Entry} (h : l.any (·.is .template) = true) : tc (popUntil (·.is .template) l) < tc l := by
  induction l with
  | nil => simp at h
  | cons e l ih =>
    unfold popUntil
    split_ifs with he
    · unfold tc
      rw [List.countP_cons_of_pos (by exact he)]
      exact Nat.lt_succ_self _
    · refine Nat.lt_of_lt_of_le (ih ?_) (tc_sublist (List.sublist_cons_self _ _))
      simpa [he] using h

theorem step_eof : step tbl re .eof s = byMode tbl re .eof s := by
  unfold step
  split
  · rfl
  · simp [byRules]

theorem nf_templateEof (small : ∀ s, Good s → tc s.stack < k → NF (re .eof s)) (g : Good s) (hm : tc s.stack ≤ k) : NF (templateEof re s) := by
  unfold templateEof
  refine NF.ite (fun h => ?_) fun _ => NF.ok _
  dsimp only
  split
  · exact NF.err (by decide)
  · refine NF.bind (nf_reset _) fun s' hs => ?_
    next m' l hl =>
    have ht : ∀ m ∈ l, m ≠ .text ∧ m ≠ .inTableText := by
      intro m hm'
      refine g.tmpl m ?_
      have : s.tmpl = m' :: l := hl
      rw [this]
      exact List.mem_cons_of_mem _ hm'
    obtain ⟨m, rfl, hr⟩ := reset_ok hs
    refine small _ ?_ ?_
    · exact ⟨g.1, ht, (resetMode_ne ht hr).2⟩
    · exact Nat.lt_of_lt_of_le (tc_popUntil h) hm

theorem nf_bodyEof (small : ∀ s, Good s → tc s.stack < k → NF (re .eof s)) (g : Good s) (hm : tc s.stack ≤ k) : NF (onInBody re .eof s) :=
  NF.ite (fun _ => nf_templateEof small g hm) fun _ => NF.ok _

/-- Modes in which the end of the file is processed as in "in body" or ends parsing. -/
def eofModes : List Mode :=
  [.inBody, .inTable, .inCaption, .inColumnGroup, .inTableBody, .inRow, .inCell, .inSelect, .inSelectInTable, .inTemplate, .afterBody,
   .inFrameset, .afterFrameset, .afterAfterBody, .afterAfterFrameset]

theorem levelEof {N : Nat} (ih : ∀ s, Good s → tc s.stack < k → T tbl N .eof s) (g : Good s) (hm : tc s.stack ≤ k) :
    T tbl (N + 8) .eof s := by
  have st : ∀ n s, (∀ m, n ≤ m → NF (byMode tbl (process tbl m) .eof { s with omitLf := false })) → T tbl (n + 1) .eof s := by
    intro n s h
    refine T.succ fun m hm1 => ?_
    rw [step_eof]
    exact h m hm1
  have base : ∀ s, Good s → tc s.stack ≤ k → s.mode ∈ eofModes → T tbl (N + 1) .eof s := by
    intro s g hm hb
    refine st N s fun m h1 => ?_
    have sm : ∀ s, Good s → tc s.stack < k → NF (process tbl m .eof s) := fun s g h => ih s g h m h1
    have b : NF (onInBody (process tbl m) .eof { s with omitLf := false }) := nf_bodyEof sm ⟨g.1, g.2, by gm g⟩ hm
    have t : NF (templateEof (process tbl m) { s with omitLf := false }) := nf_templateEof sm ⟨g.1, g.2, by gm g⟩ hm
    unfold byMode
    split <;> rename_i h
    all_goals first
      | exact b
      | exact t
      | exact NF.ok _
      | (exfalso; revert hb; dsimp only at h; rw [h]; decide)
      | exact nf_onInFrameset
  have afterHead : ∀ s, Good s → tc s.stack ≤ k → s.mode = .afterHead → T tbl (N + 2) .eof s := by
    intro s g hm hb
    refine st _ s fun m h1 => ?_
    rw [byMode_afterHead (s := { s with omitLf := false }) hb]
    show NF (afterHeadElse _ _ _)
    unfold afterHeadElse
    refine NF.bind (nf_insertHtml _ _ _) fun s' h => ?_
    obtain ⟨d, n, rfl⟩ := insertHtml_ok h
    refine base _ ?_ ?_ ?_ m h1
    · exact ⟨g.1, g.2, by gm g⟩
    · exact hm
    · simp [S.to, eofModes]
  have inHead : ∀ s, Good s → tc s.stack ≤ k → s.mode = .inHead → T tbl (N + 3) .eof s := by
    intro s g hm hb
    refine st _ s fun m h1 => ?_
    rw [byMode_inHead (s := { s with omitLf := false }) hb]
    show NF (inHeadElse _ _ _)
    unfold inHeadElse
    refine NF.bind (nf_assertCur _ _) fun u hu => NF.bind (nf_pop _) fun s' hp => ?_
    obtain ⟨e, h3, h4⟩ := pop_ok hp
    rw [h4]
    refine afterHead _ ?_ ?_ ?_ m h1
    · exact ⟨g.1, g.2, by gm g⟩
    · exact Nat.le_trans (tc_sublist (h3 ▸ List.sublist_cons_self _ _)) hm
    · rfl
  have noscript : ∀ s, Good s → tc s.stack ≤ k → s.mode = .inHeadNoscript → T tbl (N + 4) .eof s := by
    intro s g hm hb
    refine st _ s fun m h1 => ?_
    simp only [byMode, hb]
    show NF (noscriptElse _ _ _)
    unfold noscriptElse
    refine NF.bind (nf_popNoscript _) fun s' hs => ?_
    unfold popNoscript at hs
    cases h1' : assertCur { s with omitLf := false, mode := .inHeadNoscript } .noscript with
    | error e => simp [h1', Bind.bind, Except.bind] at hs
    | ok u =>
      cases h2 : pop { s with omitLf := false, mode := .inHeadNoscript } with
      | error e => simp [h1', h2, Bind.bind, Except.bind] at hs
      | ok s1 =>
        cases h3 : assertCur s1 .head with
        | error e => simp [h1', h2, h3, Bind.bind, Except.bind] at hs
        | ok u =>
          simp only [h1', h2, h3, Bind.bind, Except.bind] at hs
          cases hs
          obtain ⟨e', h6, h7⟩ := pop_ok h2
          rw [h7]
          refine inHead _ ?_ ?_ ?_ m h1
          · exact ⟨g.1, g.2, by gm g⟩
          · exact Nat.le_trans (tc_sublist (h6 ▸ List.sublist_cons_self _ _)) hm
          · rfl
  have beforeHead : ∀ s, Good s → tc s.stack ≤ k → s.mode = .beforeHead → T tbl (N + 4) .eof s := by
    intro s g hm hb
    refine st _ s fun m h1 => ?_
    apply byMode_beforeHead (by exact hb)
    unfold beforeHeadElse
    refine NF.bind (nf_insertHead _ _) fun s' hs => ?_
    obtain ⟨d, n, rfl⟩ := insertHead_ok hs
    refine inHead _ ?_ ?_ ?_ m h1
    · exact ⟨g.1, g.2, by gm g⟩
    · exact hm
    · rfl
  have beforeHtml : ∀ s, Good s → tc s.stack ≤ k → s.mode = .beforeHtml → T tbl (N + 5) .eof s := by
    intro s g hm hb
    refine st _ s fun m h1 => ?_
    apply byMode_beforeHtml (by exact hb)
    unfold beforeHtmlElse
    refine NF.bind (nf_insertRoot _ _) fun s' hs => ?_
    obtain ⟨d, n, rfl⟩ := insertRoot_ok hs
    refine beforeHead _ ?_ ?_ ?_ m h1
    · exact ⟨g.1, g.2, by gm g⟩
    · exact hm
    · rfl
  have up : ∀ s, Good s → tc s.stack ≤ k → s.mode ≠ .text → s.mode ≠ .inTableText → T tbl (N + 6) .eof s := by
    intro s g hm h1 h2
    cases hmode : s.mode with
    | initial =>
      refine st _ s fun m h1 => ?_
      apply byMode_initial (by exact hmode)
      unfold initialElse
      refine beforeHtml _ ?_ ?_ ?_ m h1
      · exact ⟨g.1, g.2, by gm g⟩
      · exact hm
      · rfl
    | beforeHtml => exact (beforeHtml s g hm hmode).mono (by omega)
    | beforeHead => exact (beforeHead s g hm hmode).mono (by omega)
    | inHead => exact (inHead s g hm hmode).mono (by omega)
    | inHeadNoscript => exact (noscript s g hm hmode).mono (by omega)
    | afterHead => exact (afterHead s g hm hmode).mono (by omega)
    | text => exact absurd hmode h1
    | inTableText => exact absurd hmode h2
    | _ => exact (base s g hm (by rw [hmode]; decide)).mono (by omega)
  cases hmode : s.mode with
  | text =>
    refine (st (N + 6) s fun m h1 => ?_).mono (by omega)
    have : byMode tbl (process tbl m) .eof { s with omitLf := false } = onText (process tbl m) .eof { s with omitLf := false } := by
      simp only [byMode, hmode]
    rw [this]
    unfold onText
    refine NF.bind (nf_cur _) fun _ _ => NF.bind (nf_pop _) fun s' hp => ?_
    obtain ⟨e, h3, h4⟩ := pop_ok hp
    rw [h4]
    refine up _ ?_ ?_ ?_ ?_ m h1
    · exact ⟨g.1, g.2, g.1.2⟩
    · exact Nat.le_trans (tc_sublist (h3 ▸ List.sublist_cons_self _ _)) hm
    · exact g.1.1
    · exact g.1.2
  | inTableText => exact absurd hmode g.mode
  | _ => exact (up s g hm (by rw [hmode]; decide) (by rw [hmode]; decide)).mono (by omega)

/-- The end of the file. -/
theorem main_eof (k : Nat) : ∀ s, Good s → tc s.stack < k → T tbl (8 * k) .eof s := by
  induction k with
  | zero => intro s _ h; omega
  | succ k ih =>
    intro s g hm
    exact (levelEof ih g (by omega)).mono (by omega)

/-- The bound is not reached, unless in "in table text". -/
theorem nf_process1 (tok : Tok) (g : Good s) : T tbl (8 * s.stack.length + 16) tok s := by
  by_cases h : tok = .eof
  · subst h
    have h1 : tc s.stack ≤ s.stack.length := List.countP_le_length
    exact (main_eof (tc s.stack + 1) s g (by omega)).mono (by omega)
  · have h1 := mu_le s.stack
    exact (main_tok (mu s.stack + 1) tok h s g (by omega)).mono (by omega)

/-- What the tree construction keeps. -/
structure Kept (s : S) : Prop where
  orig : s.orig ≠ .text ∧ s.orig ≠ .inTableText
  tmpl : ∀ m ∈ s.tmpl, m ≠ .text ∧ m ≠ .inTableText

theorem nf_inTableText (l : List Entry) (tok : Tok) (g : Kept s) (hm : s.mode = .inTableText) (hl : s.stack <:+ l) :
    T tbl (8 * (l.length + s.fmt.length) + 17 + s.stack.length) tok s := by
  generalize hn : s.stack.length = n
  induction n using Nat.strongRecOn generalizing s with
  | ind n ih =>
    subst hn
    refine T.mono (n := 8 * (l.length + s.fmt.length) + 16 + s.stack.length + 1) (T.succ fun m h1 => ?_) (by omega)
    have hf : NF (byMode tbl (process tbl m) tok { s with omitLf := false }) := by
      rw [byMode_inTableText (s := { s with omitLf := false }) hm]
      refine nf_tableText fun s' hs => ?_
      obtain ⟨a, ha, ha'⟩ := hs.stack
      have ho : s'.orig = s.orig := hs.orig
      have ht : s'.tmpl = s.tmpl := hs.tmpl
      refine nf_process1 tok ?_ m ?_
      · exact ⟨ho ▸ g.orig, ht ▸ g.tmpl, by simp only [S.to]; rw [ho]; exact g.orig.2⟩
      · have := hl.length_le
        simp only [S.to, ha, List.length_append] at ha' ⊢
        omega
    unfold step
    split
    · exact hf
    · next e st hs =>
      refine NF.ite (fun _ => hf) fun hr => ?_
      unfold onForeign
      split
      · nf
      · nf
      · nf
      · next t a f =>
        unfold foreignStart
        refine NF.ite (fun _ => ?_) fun _ => by nf
        refine NF.bind (nf_pop _) fun s' hp => NF.bind (nf_popForeign _) fun st hst => ?_
        obtain ⟨e', h1', h2⟩ := pop_ok hp
        rw [h2]
        have h3 := (popForeign_spec hst).1
        have h4 : st <:+ s.stack := h3.trans ((List.tail_suffix _).trans (by
          have : s.stack = e' :: s'.stack := h1'
          rw [this]; exact List.suffix_cons _ _))
        have h5 : st.length < s.stack.length := by
          have h6 : s.stack = e' :: s'.stack := h1'
          have h7 := h3.length_le
          rw [h6, List.length_cons]
          rw [List.length_tail] at h7
          omega
        refine ih st.length h5 (s := { s with omitLf := false, stack := st }) ⟨g.1, g.2⟩ hm (h4.trans hl) rfl m ?_
        dsimp only
        omega
      · unfold foreignEnd
        nf
      · exact NF.err (by decide)

/-- The bound is not reached. -/
theorem nf_process (tok : Tok) (g : Kept s) (hn : bound s ≤ n) : NF (process tbl n tok s) := by
  unfold bound at hn
  by_cases h : s.mode = .inTableText
  · exact nf_inTableText s.stack tok g h (List.suffix_refl _) n (by omega)
  · exact nf_process1 tok ⟨g.1, g.2, h⟩ n (by omega)

end Verif.Proof.HtmlTree
