import Verif.Proof.HtmlTreeTerm2

/-! Helper lemmas for C106: the induction on the size of the stack. -/

namespace Verif.Proof.HtmlTree
open Verif.Model.HtmlTree

/-- From `n` on the bound is not reached. -/
def T (tbl : List Nat → Bool) (n : Nat) (tok : Tok) (s : S) : Prop := ∀ m, n ≤ m → NF (process tbl m tok s)

variable {tbl : List Nat → Bool} {re : Re} {tok : Tok} {k n : Nat} {s : S}

theorem T.mono {n m : Nat} (h : T tbl n tok s) (hm : n ≤ m) : T tbl m tok s := fun _ h' => h _ (Nat.le_trans hm h')

theorem T.succ (h : ∀ m, n ≤ m → NF (step tbl (process tbl m) tok { s with omitLf := false })) : T tbl (n + 1) tok s := by
  intro m hm
  obtain ⟨m, rfl⟩ : ∃ m', m = m' + 1 := ⟨m - 1, by omega⟩
  unfold process
  exact NF.ite (fun _ => NF.ok _) fun _ => h m (by omega)

theorem step_top (h : TopHtml s) : step tbl re tok s = byMode tbl re tok s := by
  obtain ⟨e, l, hs, he⟩ := h
  have : byRules e tok = true := by cases tok <;> simp [byRules, he]
  simp [step, hs, this]

theorem nf_step (h : NF (byMode tbl re tok s)) (hb : ∀ st, mu st < mu s.stack → NF (re tok { s with stack := st })) :
    NF (step tbl re tok s) := by
  unfold step
  split
  · exact h
  · next e l hs =>
    refine NF.ite (fun _ => h) fun hr => ?_
    unfold onForeign
    split
    · nf
    · nf
    · nf
    · next t a f =>
      unfold foreignStart
      refine NF.ite (fun _ => ?_) fun _ => by nf
      refine NF.bind (nf_pop _) fun s' hp => NF.bind (nf_popForeign _) fun st hst => ?_
      obtain ⟨e', h1, h2⟩ := pop_ok hp
      rw [h2]
      refine hb st ?_
      rw [hs] at h1
      cases h1
      rw [hs]
      refine Nat.lt_of_le_of_lt (mu_sublist ((popForeign_spec hst).1.sublist.trans (List.tail_sublist _))) (mu_tail (Or.inl ?_))
      intro hn
      apply hr
      simp [byRules, hn]
    · unfold foreignEnd
      nf
    · exact NF.err (by decide)

theorem topHtml_omit (h : TopHtml s) : TopHtml { s with omitLf := false } := h

theorem byMode_inBody (h : s.mode = .inBody) : byMode tbl re tok s = onInBody re tok s := by simp only [byMode, h]
theorem byMode_afterBody (h : s.mode = .afterBody) : byMode tbl re tok s = onAfterBody re tok s := by simp only [byMode, h]
theorem byMode_inColumnGroup (h : s.mode = .inColumnGroup) : byMode tbl re tok s = onInColumnGroup re tok s := by simp only [byMode, h]
theorem byMode_inRow (h : s.mode = .inRow) : byMode tbl re tok s = onInRow re tok s := by simp only [byMode, h]
theorem byMode_inTableBody (h : s.mode = .inTableBody) : byMode tbl re tok s = onInTableBody re tok s := by simp only [byMode, h]
theorem byMode_inTableText (h : s.mode = .inTableText) : byMode tbl re tok s = onInTableText re tok s := by simp only [byMode, h]
theorem byMode_afterHead (h : s.mode = .afterHead) : byMode tbl re tok s = onAfterHead re tok s := by simp only [byMode, h]
theorem byMode_inHead (h : s.mode = .inHead) : byMode tbl re tok s = onInHead re tok s := by simp only [byMode, h]
theorem byMode_inTemplate (h : s.mode = .inTemplate) : byMode tbl re tok s = onInTemplate re tok s := by simp only [byMode, h]
theorem byMode_afterAfterBody (h : s.mode = .afterAfterBody) : byMode tbl re tok s = onAfterAfterBody re tok s := by simp only [byMode, h]

/-! ## States from which the end is near -/

theorem loc_bodyPlain (hm : s.mode = .inBody) (ht : TopHtml s) (hb : ∀ re s, BodyRe re tok s) : T tbl 1 tok s := by
  refine T.succ fun m _ => ?_
  rw [step_top (topHtml_omit ht)]
  rw [byMode_inBody (s := { s with omitLf := false }) hm]
  exact nf_onInBody (hb _ _)

theorem bodyRe_img {a : List At} {f : Bool} (re : Re) (s : S) : BodyRe re (.start (.k .img) a f) s := by
  constructor
  · intro t a f h hi; cases h; cases hi
  · intro t h; cases h
  · intro t h; cases h
  · intro h; cases h

theorem bodyRe_brStart {a : List At} {f : Bool} (re : Re) (s : S) : BodyRe re (.start (.k .br) a f) s := by
  constructor
  · intro t a f h hi; cases h; cases hi
  · intro t h; cases h
  · intro t h; cases h
  · intro h; cases h

theorem loc_afterBodyHtml {t : Tag} (hm : s.mode = .afterBody) (ht : t.is .html = true) : T tbl 1 (.fin t) s := by
  refine T.succ fun m _ => ?_
  have hb : ∀ re, NF (byMode tbl re (.fin t) { s with omitLf := false }) := by
    intro re
    rw [byMode_afterBody (s := { s with omitLf := false }) hm]
    unfold onAfterBody
    exact NF.ite (fun _ => NF.ok _) fun h => absurd ht h
  unfold step
  split
  · exact hb _
  · refine NF.ite (fun _ => hb _) fun _ => ?_
    unfold onForeign
    dsimp only
    unfold foreignEnd
    have := hb (process tbl m)
    nf

theorem loc_body (hne : tok ≠ .eof) (hm : s.mode = .inBody) (ht : TopHtml s) : T tbl 2 tok s := by
  refine T.succ fun m hm1 => ?_
  rw [step_top (topHtml_omit ht)]
  rw [byMode_inBody (s := { s with omitLf := false }) hm]
  apply nf_onInBody
  constructor
  · intro t a f _ _
    exact loc_bodyPlain (by exact hm) (topHtml_omit ht) bodyRe_img m hm1
  · intro t _ _
    exact loc_bodyPlain (by exact hm) (topHtml_omit ht) bodyRe_brStart m hm1
  · intro t h1 h2
    subst h1
    exact loc_afterBodyHtml rfl h2 m hm1
  · intro h; exact absurd h hne

theorem loc_col {t : Tag} {a : List At} {f : Bool} (h : t.is .col = true) (hm : s.mode = .inColumnGroup) (ht : TopHtml s) :
    T tbl 1 (.start t a f) s := by
  refine T.succ fun m hm1 => ?_
  rw [step_top (topHtml_omit ht)]
  rw [byMode_inColumnGroup (s := { s with omitLf := false }) hm]
  unfold onInColumnGroup
  dsimp only
  refine NF.ite (fun _ => by nf) fun _ => NF.ite (fun _ => by nf) fun hn => absurd h hn

theorem loc_row {t : Tag} {a : List At} {f : Bool} (h : t.mem [.th, .td] = true) (hm : s.mode = .inRow) (ht : TopHtml s) :
    T tbl 1 (.start t a f) s := by
  refine T.succ fun m hm1 => ?_
  rw [step_top (topHtml_omit ht)]
  rw [byMode_inRow (s := { s with omitLf := false }) hm]
  unfold onInRow
  dsimp only
  rw [if_pos h]
  nf

theorem loc_tbody {t : Tag} {a : List At} {f : Bool} (h : t.mem [.td, .th, .tr] = true) (hm : s.mode = .inTableBody) (ht : TopHtml s) :
    T tbl 2 (.start t a f) s := by
  refine T.succ fun m hm1 => ?_
  rw [step_top (topHtml_omit ht)]
  rw [byMode_inTableBody (s := { s with omitLf := false }) hm]
  unfold onInTableBody
  dsimp only
  refine NF.ite (fun _ => by nf) fun h1 => NF.ite (fun h2 => ?_) fun h2 => ?_
  · exact NF.bind (nf_SbackTo _ _) fun s1 h1 => NF.bind (nf_insertHtml _ _ _) fun s' h => loc_row h2 rfl (topHtml_insert h _) m hm1
  · exfalso
    obtain ⟨k, hk, rfl⟩ := mem_iff.1 h
    revert h1 h2
    simp only [List.mem_cons, List.not_mem_nil, or_false] at hk
    rcases hk with rfl | rfl | rfl <;> decide

theorem loc_text {c : Nat} (hm : s.mode = .inTableText) (ht : TopHtml s) : T tbl 1 (.char c) s := by
  refine T.succ fun m hm1 => ?_
  rw [step_top (topHtml_omit ht)]
  rw [byMode_inTableText (s := { s with omitLf := false }) hm]
  unfold onInTableText
  dsimp only
  nf

/-- The local facts for the actual `re`. -/
theorem mkLev {m : Nat} (hm : 2 ≤ m) (hne : tok ≠ .eof) (small : ∀ s, Good s → mu s.stack < k → NF (process tbl m tok s))
    (image : ∀ t a f, tok = .start t a f → t.is .image = true → ∀ s, Good s → mu s.stack ≤ k → NF (process tbl m (.start (.k .img) a f) s))
    (br : ∀ t, tok = .fin t → t.is .br = true → ∀ s, Good s → mu s.stack ≤ k → NF (process tbl m (.start (.k .br) [] false) s)) :
    Lev (process tbl m) tok k where
  small := small
  image := image
  br := br
  html t h ht s hs := by subst h; exact loc_afterBodyHtml hs ht m (by omega)
  body s hs ht := loc_body hne hs ht m hm
  col t a f h hc s hs ht := by subst h; exact loc_col hc hs ht m (by omega)
  tbody t a f h hc s hs ht := by subst h; exact loc_tbody hc hs ht m (by omega)
  row t a f h hc s hs ht := by subst h; exact loc_row hc hs ht m (by omega)
  text c h s hs ht := by subst h; exact loc_text hs ht m (by omega)

theorem loc_afterHead (hne : tok ≠ .eof) (hm : s.mode = .afterHead) (ht : TopHtml s) : T tbl 3 tok s := by
  refine T.succ fun m hm1 => ?_
  rw [step_top (topHtml_omit ht)]
  rw [byMode_afterHead (s := { s with omitLf := false }) hm]
  have h : NF (afterHeadElse (process tbl m) tok { s with omitLf := false }) := by
    unfold afterHeadElse
    exact NF.bind (nf_insertHtml _ _ _) fun s' h => loc_body hne rfl (topHtml_insert h _) m hm1
  unfold onAfterHead
  nf

/-- "in head" with an HTML element on top: the rest is as "after head" below it. -/
theorem headTop {e : Entry} {st : List Entry} (hm : s.mode = .inHead) (hs : s.stack = e :: st) (he : e.ns = .html)
    (h : T tbl n tok { s with omitLf := false, stack := st, mode := .afterHead }) : T tbl (n + 1) tok s := by
  refine T.succ fun m hm1 => ?_
  rw [step_top (topHtml_omit ⟨e, st, hs, he⟩)]
  rw [byMode_inHead (s := { s with omitLf := false }) hm]
  have h : NF (inHeadElse (process tbl m) tok { s with omitLf := false }) := by
    unfold inHeadElse
    refine NF.bind (nf_assertCur _ _) fun u hu => NF.bind (nf_pop _) fun s' hp => ?_
    obtain ⟨e', h3, h4⟩ := pop_ok hp
    rw [h4]
    dsimp only at h3
    rw [hs] at h3
    cases h3
    exact h m hm1
  unfold onInHead
  nf

theorem insertHead_ok {s s' : S} {a : List At} (h : insertHead s a = .ok s') :
    ∃ d n, s' = { s with dom := d, stack := ⟨n, .html, .k .head, a⟩ :: s.stack, head := some n, mode := .inHead } := by
  unfold insertHead at h
  cases h1 : insertHtml s (.k .head) a with
  | error e => simp [h1, Bind.bind, Except.bind] at h
  | ok s1 =>
    obtain ⟨d, n, rfl⟩ := insertHtml_ok h1
    simp only [h1, Bind.bind, Except.bind, cur] at h
    cases h
    exact ⟨d, n, rfl⟩

/-- "before head": the rest is as "after head". -/
theorem headBefore (hb : ∀ re, NF (beforeHeadElse re tok s) → NF (byMode tbl re tok s))
    (h : ∀ d h, T tbl n tok { s with dom := d, head := h, omitLf := false, mode := .afterHead }) {m : Nat} (hm : n + 1 ≤ m) :
    NF (byMode tbl (process tbl m) tok s) := by
  apply hb
  unfold beforeHeadElse
  refine NF.bind (nf_insertHead _ _) fun s' hs => ?_
  obtain ⟨d, n, rfl⟩ := insertHead_ok hs
  refine headTop (e := ⟨n, .html, .k .head, []⟩) (st := s.stack) ?_ ?_ rfl ?_ m hm
  · rfl
  · rfl
  · exact h _ _

theorem byMode_beforeHead (hm : s.mode = .beforeHead) : ∀ re, NF (beforeHeadElse re tok s) → NF (byMode tbl re tok s) := by
  intro re h
  unfold byMode
  simp only [hm]
  unfold onBeforeHead
  nf

theorem loc_beforeHead (hne : tok ≠ .eof) (hm : s.mode = .beforeHead) (ht : TopHtml s) : T tbl 5 tok s := by
  refine T.succ fun m hm1 => ?_
  rw [step_top (topHtml_omit ht)]
  exact headBefore (s := { s with omitLf := false }) (n := 3) (byMode_beforeHead (by exact hm)) (fun d h => loc_afterHead hne rfl ht) hm1

theorem insertRoot_ok {s s' : S} {a : List At} (h : insertRoot s a = .ok s') :
    ∃ d n, s' = { s with dom := d, stack := ⟨n, .html, .k .html, a⟩ :: s.stack, mode := .beforeHead } := by
  unfold insertRoot at h
  simp only [create] at h
  cases h1 : link (s.dom ++ [⟨.elem .html (.k .html) a, none, []⟩]) (.last 0) s.dom.length with
  | error e => simp [h1, Bind.bind, Except.bind] at h
  | ok d =>
    simp only [h1, Bind.bind, Except.bind] at h
    cases h
    exact ⟨d, _, rfl⟩

theorem byMode_beforeHtml (hm : s.mode = .beforeHtml) (h : NF (beforeHtmlElse re tok s)) : NF (byMode tbl re tok s) := by
  unfold byMode
  simp only [hm]
  unfold onBeforeHtml
  nf

theorem nf_beforeHtml (hne : tok ≠ .eof) (hm : s.mode = .beforeHtml) {m : Nat} (h : 5 ≤ m) : NF (byMode tbl (process tbl m) tok s) := by
  apply byMode_beforeHtml hm
  unfold beforeHtmlElse
  refine NF.bind (nf_insertRoot _ _) fun s' hs => ?_
  obtain ⟨d, n, rfl⟩ := insertRoot_ok hs
  exact loc_beforeHead hne rfl ⟨_, _, rfl, rfl⟩ m h

theorem byMode_initial (hm : s.mode = .initial) (h : NF (initialElse re tok s)) : NF (byMode tbl re tok s) := by
  unfold byMode
  simp only [hm]
  unfold onInitial
  split
  · nf
  · nf
  · exact NF.bind (nf_link _ _ _) fun _ _ => NF.ok _
  · nf

/-! ## One level -/

theorem level {N M : Nat} (ih : ∀ tok, tok ≠ .eof → ∀ s, Good s → mu s.stack < k → T tbl N tok s) (hN : 8 ≤ N) (hNM : N ≤ M)
    (hne : tok ≠ .eof)
    (image : ∀ t a f, tok = .start t a f → t.is .image = true → ∀ s, Good s → mu s.stack ≤ k → T tbl M (.start (.k .img) a f) s)
    (br : ∀ t, tok = .fin t → t.is .br = true → ∀ s, Good s → mu s.stack ≤ k → T tbl M (.start (.k .br) [] false) s)
    (g : Good s) (hm : mu s.stack ≤ k) : T tbl (M + 4) tok s := by
  have L : ∀ m, M ≤ m → Lev (process tbl m) tok k := fun m h => mkLev (by omega) hne
    (fun s g hs => ih tok hne s g hs m (by omega))
    (fun t a f h1 h2 s g hs => image t a f h1 h2 s g hs m h) (fun t h1 h2 s g hs => br t h1 h2 s g hs m h)
  -- a level in one mode
  have st : ∀ n, M ≤ n → ∀ s, Good s → mu s.stack ≤ k →
      (∀ m, n ≤ m → NF (byMode tbl (process tbl m) tok { s with omitLf := false })) → T tbl (n + 1) tok s := by
    intro n hn s g hm h
    refine T.succ fun m hm1 => nf_step (h m hm1) fun st hst => ?_
    exact (L m (by omega)).small _ ⟨g.1, g.2, by gm g⟩ (Nat.lt_of_lt_of_le hst hm)
  have base : ∀ s, Good s → mu s.stack ≤ k → s.mode ∈ baseModes → T tbl (M + 1) tok s := by
    intro s g hm hb
    exact st M (Nat.le_refl _) s g hm fun m h1 => lev_base tbl (L m h1) hne ⟨g.1, g.2, by gm g⟩ hm hb
  have up : ∀ s, Good s → mu s.stack ≤ k → s.mode ≠ .inTableText → T tbl (M + 3) tok s := by
    intro s g hm ht
    cases hmode : s.mode with
    | initial =>
      refine T.mono (n := M + 2) (st (M + 1) (by omega) s g hm fun m h1 => byMode_initial (by exact hmode) ?_) (by omega)
      refine st M (by omega) _ ?_ ?_ ?_ m (by omega)
      · exact ⟨g.1, g.2, by gm g⟩
      · exact hm
      · exact fun m h2 => nf_beforeHtml hne rfl (by omega)
    | beforeHtml =>
      exact T.mono (n := M + 1) (st M (by omega) s g hm fun m h1 => nf_beforeHtml hne (by exact hmode) (by omega)) (by omega)
    | beforeHead =>
      refine st (M + 2) (by omega) s g hm fun m h1 => headBefore (s := { s with omitLf := false }) (n := M + 1) (byMode_beforeHead (by exact hmode)) (fun d h => ?_) h1
      refine base _ ?_ ?_ ?_
      · exact ⟨g.1, g.2, by gm g⟩
      · exact hm
      · simp [baseModes]
    | inTemplate =>
      refine T.mono (n := M + 2) (st (M + 1) (by omega) s g hm fun m h1 => ?_) (by omega)
      have hb : NF (onInBody (process tbl m) tok { s with omitLf := false }) :=
        nf_onInBody ((L m (by omega)).bodyRe hne ⟨g.1, g.2, by gm g⟩ hm)
      have hr : ∀ m', m' ∈ baseModes → m' ≠ .text → NF (templateAs (process tbl m) m' tok { s with omitLf := false }) := by
        intro m' hm' hm2
        unfold templateAs
        split
        · exact NF.err (by decide)
        · next l hl =>
          have hk : m' ≠ .inTableText := by rintro rfl; exact absurd hm' (by decide)
          refine base _ ?_ ?_ ?_ m h1
          · refine ⟨g.1, ?_, hk⟩
            intro x hx
            rcases List.mem_cons.1 hx with rfl | hx
            · exact ⟨hm2, hk⟩
            · refine g.tmpl x ?_
              have : s.tmpl = _ :: l := hl
              rw [this]
              exact List.mem_cons_of_mem _ hx
          · exact hm
          · exact hm'
      rw [byMode_inTemplate (s := { s with omitLf := false }) hmode]
      unfold onInTemplate
      split
      · refine NF.ite (fun _ => by nf) fun _ => NF.ite (fun _ => hr _ (by decide) (by decide)) fun _ => NF.ite (fun _ => hr _ (by decide) (by decide)) fun _ =>
          NF.ite (fun _ => hr _ (by decide) (by decide)) fun _ => NF.ite (fun _ => hr _ (by decide) (by decide)) fun _ => hr _ (by decide) (by decide)
      · nf
      · exact absurd rfl hne
      · exact hb
    | afterBody =>
      refine T.mono (n := M + 2) (st (M + 1) (by omega) s g hm fun m h1 => ?_) (by omega)
      have hb : NF (onInBody (process tbl m) tok { s with omitLf := false }) :=
        nf_onInBody ((L m (by omega)).bodyRe hne ⟨g.1, g.2, by gm g⟩ hm)
      have hr : NF (process tbl m tok (S.to { s with omitLf := false } .inBody)) := by
        refine base _ ?_ ?_ ?_ m h1
        · exact ⟨g.1, g.2, by gm g⟩
        · exact hm
        · simp [baseModes, S.to]
      rw [byMode_afterBody (s := { s with omitLf := false }) hmode]
      unfold onAfterBody
      nf
    | afterAfterBody =>
      refine T.mono (n := M + 2) (st (M + 1) (by omega) s g hm fun m h1 => ?_) (by omega)
      have hb : NF (onInBody (process tbl m) tok { s with omitLf := false }) :=
        nf_onInBody ((L m (by omega)).bodyRe hne ⟨g.1, g.2, by gm g⟩ hm)
      have hr : NF (process tbl m tok (S.to { s with omitLf := false } .inBody)) := by
        refine base _ ?_ ?_ ?_ m h1
        · exact ⟨g.1, g.2, by gm g⟩
        · exact hm
        · simp [baseModes, S.to]
      rw [byMode_afterAfterBody (s := { s with omitLf := false }) hmode]
      unfold onAfterAfterBody
      nf
    | inTableText => exact absurd hmode ht
    | _ => exact T.mono (base s g hm (by rw [hmode]; decide)) (by omega)
  exact T.mono (up s g hm g.mode) (by omega)

/-- Every token but the end of the file. -/
theorem main_tok (k : Nat) : ∀ tok, tok ≠ .eof → ∀ s, Good s → mu s.stack < k → T tbl (8 * k + 8) tok s := by
  induction k with
  | zero => intro tok _ s _ h; omega
  | succ k ih =>
    intro tok hne s g hm
    have plain : ∀ tok, tok ≠ .eof → (∀ t a f, tok = .start t a f → t.is .image = false) → (∀ t, tok = .fin t → t.is .br = false) →
        ∀ s, Good s → mu s.stack ≤ k → T tbl (8 * k + 8 + 4) tok s := by
      intro tok hne h1 h2 s g hm
      refine level ih (by omega) (Nat.le_refl _) hne ?_ ?_ g hm
      · intro t a f h h'; rw [h1 t a f h] at h'; cases h'
      · intro t h h'; rw [h2 t h] at h'; cases h'
    have := level (tbl := tbl) (tok := tok) (s := s) (k := k) (N := 8 * k + 8) (M := 8 * k + 8 + 4) ih (by omega) (by omega) hne
      (fun t a f _ _ s g hs => plain _ (by simp) (by intro t a f h; cases h; rfl) (by intro t h; cases h) s g hs)
      (fun t _ _ s g hs => plain _ (by simp) (by intro t a f h; cases h; rfl) (by intro t h; cases h) s g hs) g (by omega)
    exact T.mono this (by omega)

/-! ## The characters of a table -/

/-- Only elements of the formatting list have been pushed. -/
structure Grown (s s' : S) : Prop where
  stack : ∃ a, s'.stack = a ++ s.stack ∧ a.length ≤ s.fmt.length
  orig : s'.orig = s.orig
  tmpl : s'.tmpl = s.tmpl

theorem grown_insertChar {s s' : S} {c : Nat} (h : insertChar s c = .ok s') : ∃ d, s' = { s with dom := d } := by
  unfold insertChar at h
  cases h1 : cur s with
  | error e => simp [h1, Bind.bind, Except.bind] at h
  | ok e =>
    cases h2 : place s e with
    | error e => simp [h1, h2, Bind.bind, Except.bind] at h
    | ok pl =>
      simp only [h1, h2, Bind.bind, Except.bind] at h
      split at h
      · cases h
      · split_ifs at h
        · cases h; exact ⟨s.dom, rfl⟩
        · split at h
          · cases h; exact ⟨_, rfl⟩
          · split at h
            · cases h
            · cases h; exact ⟨_, rfl⟩

theorem toOpen_length (s : S) (l : List Fmt) : (toOpen s l).1.length ≤ l.length := by
  induction l with
  | nil => simp [toOpen]
  | cons f l ih =>
    cases f with
    | marker => simp [toOpen]
    | el e =>
      unfold toOpen
      split_ifs
      · simp
      · simp only [List.length_cons]; omega

/-- Nothing is to be opened again. -/
def Opened (s : S) : Prop := (toOpen s s.fmt).1 = []

theorem reopen_grown {l : List Entry} {s s' : S} (h : reopen s l = .ok s') :
    (∃ a, s'.stack = a ++ s.stack ∧ a.length = l.length) ∧ s'.orig = s.orig ∧ s'.tmpl = s.tmpl ∧ (l = [] → s' = s) ∧
      (l ≠ [] → Opened s') := by
  induction l generalizing s with
  | nil => cases h; exact ⟨⟨[], rfl, rfl⟩, rfl, rfl, fun _ => rfl, fun h => absurd rfl h⟩
  | cons e l ih =>
    unfold reopen at h
    cases h1 : insertHtml s e.tag e.attrs with
    | error e => simp [h1, Bind.bind, Except.bind] at h
    | ok s1 =>
      obtain ⟨d, n, rfl⟩ := insertHtml_ok h1
      simp only [h1, Bind.bind, Except.bind, cur] at h
      obtain ⟨⟨a, h2, h3⟩, h4, h5, h6, h7⟩ := ih h
      refine ⟨⟨a ++ [⟨n, .html, e.tag, e.attrs⟩], by simp [h2], by simp [h3]⟩, h4, h5, by simp, fun _ => ?_⟩
      by_cases hl : l = []
      · rw [h6 hl]
        simp [Opened, toOpen, hasNode]
      · exact h7 hl

theorem toOpen_nil {s : S} {l : List Fmt} (h : (toOpen s l).1 = []) : (toOpen s l).2 = l := by
  cases l with
  | nil => simp [toOpen]
  | cons f l =>
    cases f with
    | marker => simp [toOpen]
    | el e =>
      unfold toOpen at h ⊢
      split_ifs at h ⊢
      · rfl

theorem reconstruct_grown {s' : S} (h : reconstruct s = .ok s') : Grown s s' ∧ Opened s' ∧ (Opened s → s' = s) := by
  unfold reconstruct at h
  obtain ⟨⟨a, h2, h3⟩, h4, h5, h6, h7⟩ := reopen_grown h
  have h8 := toOpen_length s s.fmt
  have h9 : Opened s → s' = s := by
    intro ho
    have := h6 (by rw [show (toOpen s s.fmt).1 = [] from ho]; rfl)
    rw [this, toOpen_nil ho]
  refine ⟨⟨⟨a, h2, by rw [h3, List.length_reverse]; exact h8⟩, h4, h5⟩, ?_, h9⟩
  by_cases ho : (toOpen s s.fmt).1 = []
  · rw [h9 ho]; exact ho
  · exact h7 (by simpa using ho)

theorem inTableElse_grown {c : Nat} {s' : S} (h : inTableElse re (.char c) s = .ok s') :
    (Grown s s' ∧ Opened s') ∨ (s'.stack = s.stack ∧ s'.fmt = s.fmt ∧ s'.orig = s.orig ∧ s'.tmpl = s.tmpl) := by
  unfold inTableElse onInBody at h
  dsimp only at h
  by_cases hc : c = 0
  · rw [if_pos hc] at h
    simp only [Bind.bind, Except.bind] at h
    cases h
    exact Or.inr ⟨rfl, rfl, rfl, rfl⟩
  · rw [if_neg hc] at h
    cases h1 : reconstruct { s with foster := true } with
    | error e => simp [h1, Bind.bind, Except.bind] at h
    | ok s1 =>
      cases h2 : insertChar s1 c with
      | error e => simp [h1, h2, Bind.bind, Except.bind] at h
      | ok s2 =>
        obtain ⟨d, rfl⟩ := grown_insertChar h2
        simp only [h1, h2, Bind.bind, Except.bind] at h
        cases h
        obtain ⟨h3, h4, _⟩ := reconstruct_grown (s := { s with foster := true }) h1
        refine Or.inl ⟨⟨?_, ?_, ?_⟩, ?_⟩
        · split_ifs <;> exact h3.stack
        · split_ifs <;> exact h3.orig
        · split_ifs <;> exact h3.tmpl
        · have : ∀ l x, (∀ e, hasNode s1 e = hasNode x e) → (toOpen s1 l).1 = [] → (toOpen x l).1 = [] := by
            intro l x hx ht
            cases l with
            | nil => simp [toOpen]
            | cons f l =>
              cases f with
              | marker => simp [toOpen]
              | el e =>
                unfold toOpen at ht ⊢
                rw [← hx]
                split_ifs at ht ⊢
                · rfl
          split_ifs <;> exact this _ _ (fun _ => rfl) h4

theorem opened_same {s s' : S} (h : Opened s) (h1 : s'.stack = s.stack) (h2 : s'.fmt = s.fmt) : Opened s' := by
  unfold Opened at h ⊢
  rw [h2]
  revert h
  cases s.fmt with
  | nil => simp [toOpen]
  | cons f l =>
    cases f with
    | marker => simp [toOpen]
    | el e =>
      unfold toOpen
      rw [show hasNode s' e.node = hasNode s e.node by unfold hasNode; rw [h1]]
      split_ifs <;> simp

theorem inTableElse_opened {c : Nat} {s' : S} (ho : Opened s) (h : inTableElse re (.char c) s = .ok s') :
    s'.stack = s.stack ∧ s'.fmt = s.fmt ∧ s'.orig = s.orig ∧ s'.tmpl = s.tmpl := by
  unfold inTableElse onInBody at h
  dsimp only at h
  by_cases hc : c = 0
  · rw [if_pos hc] at h
    simp only [Bind.bind, Except.bind] at h
    cases h
    exact ⟨rfl, rfl, rfl, rfl⟩
  · rw [if_neg hc] at h
    cases h1 : reconstruct { s with foster := true } with
    | error e => simp [h1, Bind.bind, Except.bind] at h
    | ok s1 =>
      have := (reconstruct_grown (s := { s with foster := true }) h1).2.2 (opened_same ho rfl rfl)
      subst this
      cases h2 : insertChar { s with foster := true } c with
      | error e => simp [h1, h2, Bind.bind, Except.bind] at h
      | ok s2 =>
        obtain ⟨d, rfl⟩ := grown_insertChar h2
        simp only [h1, h2, Bind.bind, Except.bind] at h
        cases h
        split_ifs <;> exact ⟨rfl, rfl, rfl, rfl⟩

theorem fosterChars_opened {l : List Nat} {s' : S} (ho : Opened s) (h : fosterChars re l s = .ok s') :
    s'.stack = s.stack ∧ s'.orig = s.orig ∧ s'.tmpl = s.tmpl := by
  induction l generalizing s with
  | nil => cases h; exact ⟨rfl, rfl, rfl⟩
  | cons c l ih =>
    unfold fosterChars at h
    cases h1 : inTableElse re (.char c) s with
    | error e => simp [h1, Bind.bind, Except.bind] at h
    | ok s1 =>
      simp only [h1, Bind.bind, Except.bind] at h
      obtain ⟨h2, h3, h4, h5⟩ := inTableElse_opened ho h1
      obtain ⟨h6, h7, h8⟩ := ih (opened_same ho h2 h3) h
      exact ⟨h6.trans h2, h7.trans h4, h8.trans h5⟩

theorem fosterChars_grown {l : List Nat} {s' : S} (h : fosterChars re l s = .ok s') : Grown s s' := by
  induction l generalizing s with
  | nil => cases h; exact ⟨⟨[], rfl, by simp⟩, rfl, rfl⟩
  | cons c l ih =>
    unfold fosterChars at h
    cases h1 : inTableElse re (.char c) s with
    | error e => simp [h1, Bind.bind, Except.bind] at h
    | ok s1 =>
      simp only [h1, Bind.bind, Except.bind] at h
      rcases inTableElse_grown h1 with ⟨h2, h3⟩ | ⟨h2, h3, h4, h5⟩
      · obtain ⟨h6, h7, h8⟩ := fosterChars_opened h3 h
        exact ⟨h6 ▸ h2.stack, h7.trans h2.orig, h8.trans h2.tmpl⟩
      · have := ih h
        exact ⟨h2 ▸ h3 ▸ this.stack, this.orig.trans h4, this.tmpl.trans h5⟩

theorem insertChars_grown {l : List Nat} {s' : S} (h : insertChars l s = .ok s') : Grown s s' := by
  induction l generalizing s with
  | nil => cases h; exact ⟨⟨[], rfl, by simp⟩, rfl, rfl⟩
  | cons c l ih =>
    unfold insertChars at h
    cases h1 : insertChar s c with
    | error e => simp [h1, Bind.bind, Except.bind] at h
    | ok s1 =>
      simp only [h1, Bind.bind, Except.bind] at h
      obtain ⟨d, rfl⟩ := grown_insertChar h1
      have := ih h
      exact ⟨this.stack, this.orig, this.tmpl⟩

/-- "in table text": the characters are flushed and the token is reprocessed. -/
theorem nf_tableText (h : ∀ s', Grown s s' → NF (re tok (s'.to s'.orig))) : NF (onInTableText re tok s) := by
  unfold onInTableText
  split
  · nf
  · refine NF.ite (fun _ => ?_) fun _ => ?_
    · exact NF.bind (nf_fosterChars _ _ _) fun s' hs => h s' (fosterChars_grown hs)
    · exact NF.bind (nf_insertChars _ _) fun s' hs => h s' (insertChars_grown hs)

end Verif.Proof.HtmlTree
