import Verif.Proof.HtmlTreeTerm

/-! Helper lemmas for C106: the handlers, one level of the induction, for all tokens but the end of the file. -/

namespace Verif.Proof.HtmlTree
open Verif.Model.HtmlTree

/-- The current node is an HTML element. -/
def TopHtml (s : S) : Prop := ∃ e l, s.stack = e :: l ∧ e.ns = .html

/-- What the handlers may rely on when they reprocess the token: the states are smaller, or very special. -/
structure Lev (re : Re) (tok : Tok) (k : Nat) : Prop where
  small : ∀ s, Good s → mu s.stack < k → NF (re tok s)
  image : ∀ t a f, tok = .start t a f → t.is .image = true → ∀ s, Good s → mu s.stack ≤ k → NF (re (.start (.k .img) a f) s)
  br : ∀ t, tok = .fin t → t.is .br = true → ∀ s, Good s → mu s.stack ≤ k → NF (re (.start (.k .br) [] false) s)
  html : ∀ t, tok = .fin t → t.is .html = true → ∀ s : S, s.mode = .afterBody → NF (re tok s)
  body : ∀ s : S, s.mode = .inBody → TopHtml s → NF (re tok s)
  col : ∀ t a f, tok = .start t a f → t.is .col = true → ∀ s : S, s.mode = .inColumnGroup → TopHtml s → NF (re tok s)
  tbody : ∀ t a f, tok = .start t a f → t.mem [.td, .th, .tr] = true → ∀ s : S, s.mode = .inTableBody → TopHtml s → NF (re tok s)
  row : ∀ t a f, tok = .start t a f → t.mem [.th, .td] = true → ∀ s : S, s.mode = .inRow → TopHtml s → NF (re tok s)
  text : ∀ c, tok = .char c → ∀ s : S, s.mode = .inTableText → TopHtml s → NF (re tok s)

variable {re : Re} {tok : Tok} {k : Nat} {s : S}

theorem Lev.bodyRe (L : Lev re tok k) (hne : tok ≠ .eof) (g : Good s) (hm : mu s.stack ≤ k) : BodyRe re tok s where
  image t a f h hi := L.image t a f h hi s g hm
  br t h hb := L.br t h hb s g hm
  html t h hh := L.html t h hh _ rfl
  eof h := absurd h hne

theorem resetMode_ne {h : Option Nat} {t : List Mode} {l : List Entry} {m : Mode} (ht : ∀ m ∈ t, m ≠ .text ∧ m ≠ .inTableText)
    (hr : resetMode h t l = .ok m) : m ≠ .text ∧ m ≠ .inTableText := by
  have hs : ∀ l, resetSelect l ≠ .text ∧ resetSelect l ≠ .inTableText := by
    intro l
    induction l with
    | nil => simp [resetSelect]
    | cons e l ih => unfold resetSelect; split_ifs <;> first | exact ih | simp
  refine Ens.get (P := fun m => m ≠ .text ∧ m ≠ .inTableText) ?_ hr
  clear hr
  induction l with
  | nil => exact Ens.err
  | cons e l ih =>
    unfold resetMode
    repeat' refine Ens.ite (fun _ => ?_) (fun _ => ?_)
    case cons.refine_1 => exact Ens.ok (by split_ifs <;> first | exact hs l | simp)
    all_goals first
      | exact ih
      | exact Ens.ok (by first | (split_ifs <;> simp; done) | (simp; done))
      | (split; exact Ens.err; exact Ens.ok (ht _ (by simp)))

theorem reset_ok {s s' : S} (h : reset s = .ok s') : ∃ m, s' = { s with mode := m } ∧ resetMode s.head s.tmpl s.stack = .ok m := by
  unfold reset at h
  cases hm : resetMode s.head s.tmpl s.stack with
  | error e => simp [hm, Bind.bind, Except.bind] at h
  | ok m =>
    simp only [hm, Bind.bind, Except.bind] at h
    cases h
    exact ⟨m, rfl, rfl⟩

theorem pop_ok {s s' : S} (h : pop s = .ok s') : ∃ e, s.stack = e :: s'.stack ∧ s' = { s with stack := s'.stack } := by
  unfold pop at h
  split at h
  · cases h
  · next e l hs => cases h; exact ⟨e, hs, rfl⟩

theorem cur_ok {s : S} {e : Entry} (h : cur s = .ok e) : ∃ l, s.stack = e :: l := by
  unfold cur at h
  split at h
  · cases h
  · next e' l hs => cases h; exact ⟨l, hs⟩

theorem assertCur_ok {s : S} {t : K} {u : Unit} (h : assertCur s t = .ok u) : ∃ e l, s.stack = e :: l ∧ e.is t = true := by
  unfold assertCur at h
  cases hc : cur s with
  | error e => simp [hc, Bind.bind, Except.bind] at h
  | ok e =>
    simp only [hc, Bind.bind, Except.bind] at h
    split_ifs at h with he
    obtain ⟨l, hl⟩ := cur_ok hc
    exact ⟨e, l, hl, he⟩

theorem SbackTo_ok {s s' : S} {c : List K} (h : s.backTo c = .ok s') :
    ∃ st, s' = { s with stack := st } ∧ st <:+ s.stack ∧ ∃ e st', st = e :: st' ∧ e.isIn c = true := by
  unfold S.backTo at h
  cases hb : backTo c s.stack with
  | error e => simp [hb, Bind.bind, Except.bind] at h
  | ok st =>
    simp only [hb, Bind.bind, Except.bind] at h
    cases h
    exact ⟨st, rfl, backTo_spec hb⟩

theorem isIn_iff {e : Entry} {l : List K} : e.isIn l = true ↔ e.ns = .html ∧ ∃ k ∈ l, e.tag = .k k := by
  simp [Entry.isIn, mem_iff]

theorem eis_iff {e : Entry} {k : K} : e.is k = true ↔ e.ns = .html ∧ e.tag = .k k := by
  simp [Entry.is, is_iff]

/-- No formatting element is among the names. -/
theorem isFmt_isIn {e : Entry} {l : List K} (hl : ∀ k ∈ l, isFmt (.k k) = false) (h : e.isIn l = true) : isFmt e.tag = false := by
  obtain ⟨_, k, hk, ht⟩ := isIn_iff.1 h
  rw [ht]; exact hl k hk

theorem isFmt_is {e : Entry} {k : K} (hl : isFmt (.k k) = false) (h : e.is k = true) : isFmt e.tag = false := by
  rw [(eis_iff.1 h).2]; exact hl

theorem topHtml_insert {s s' : S} {t : Tag} {a : List At} (h : insertHtml s t a = .ok s') (m : Mode) : TopHtml (s'.to m) := by
  obtain ⟨d, n, rfl⟩ := insertHtml_ok h
  exact ⟨_, _, rfl, rfl⟩

/-- Reprocess a smaller state. -/
theorem Lev.less (L : Lev re tok k) {s s' : S} (g : Good s') (hm : mu s.stack ≤ k) (h : mu s'.stack < mu s.stack) : NF (re tok s') :=
  L.small s' g (Nat.lt_of_lt_of_le h hm)

theorem lev_table (L : Lev re tok k) (hne : tok ≠ .eof) (g : Good s) (hm : mu s.stack ≤ k) : NF (onInTable re tok s) := by
  have hb : NF (inTableElse re tok s) := nf_inTableElse (L.bodyRe hne ⟨g.1, g.2, by gm g⟩ hm)
  unfold onInTable
  split
  · next c =>
    refine NF.bind (nf_cur _) fun e he => NF.ite (fun hi => ?_) (fun _ => hb)
    obtain ⟨l, hl⟩ := cur_ok he
    exact L.text c rfl _ rfl ⟨e, l, hl, (isIn_iff.1 hi).1⟩
  · nf
  · nf
  · next t a f =>
    unfold tableStart
    refine NF.ite (fun _ => by nf) fun _ => NF.ite (fun _ => by nf) fun _ => NF.ite (fun hc => ?_) fun _ =>
      NF.ite (fun _ => by nf) fun _ => NF.ite (fun hc => ?_) fun _ => NF.ite (fun ht => ?_) fun _ => NF.ite (fun _ => by nf) fun _ =>
      NF.ite (fun _ => by nf) fun _ => NF.ite (fun _ => by nf) fun _ => hb
    · exact NF.bind (nf_insertHtml _ _ _) fun s' h => L.col t a f rfl hc _ rfl (topHtml_insert h _)
    · exact NF.bind (nf_insertHtml _ _ _) fun s' h => L.tbody t a f rfl hc _ rfl (topHtml_insert h _)
    · refine NF.bind (nf_inScope _ _ _) fun b hb => NF.ite (fun hbt => ?_) fun _ => NF.ok _
      subst hbt
      refine NF.bind (nf_reset _) fun s' hr => ?_
      obtain ⟨m, rfl, hr'⟩ := reset_ok hr
      exact L.less ⟨g.1, g.2, (resetMode_ne g.tmpl hr').2⟩ hm (mu_popUntil (fun e he => isFmt_is (by decide) he) (inScope_any hb))
  · next t =>
    refine NF.ite (fun ht => ?_) fun _ => NF.ite (fun _ => NF.ok _) fun _ => hb
    refine NF.bind (nf_inScope _ _ _) fun b hb => NF.ite (fun hbt => ?_) fun _ => NF.ok _
    refine NF.bind (nf_reset _) fun s' hr => nf_inTableElse ?_
    rw [is_iff] at ht
    subst ht
    constructor <;> intros <;> simp_all [Tag.is] 
    all_goals grind
  · exact absurd rfl hne

theorem lev_captionElse (L : Lev re tok k) (g : Good s) (hm : mu s.stack ≤ k) : NF (captionElse re tok s) := by
  unfold captionElse
  refine NF.bind (nf_inScope _ _ _) fun b hb => NF.ite (fun hbt => ?_) fun _ => NF.ok _
  subst hbt
  refine NF.bind (nf_closeCaption _) fun s' hs => ?_
  unfold closeCaption at hs
  cases hc : cur s.implied with
  | error e => simp [hc, Bind.bind, Except.bind] at hs
  | ok e =>
    simp only [hc, Bind.bind, Except.bind] at hs
    cases hs
    refine L.less ?_ hm ?_
    · exact ⟨g.1, g.2, by gm g⟩
    · refine Nat.lt_of_lt_of_le (mu_popUntil (fun e he => isFmt_is (by decide) he) (implied_any ?_ (inScope_any hb)))
        (mu_sublist (implied_suffix _ _).sublist)
      intro e he
      obtain ⟨h1, h2⟩ := eis_iff.1 he
      simp [Entry.isIn, h1, h2, Tag.mem]

theorem lev_caption (L : Lev re tok k) (hne : tok ≠ .eof) (g : Good s) (hm : mu s.stack ≤ k) : NF (onInCaption re tok s) := by
  have hb : NF (onInBody re tok s) := nf_onInBody (L.bodyRe hne g hm)
  have hc : NF (captionElse re tok s) := lev_captionElse L g hm
  unfold onInCaption
  nf

theorem lev_colgroupElse (L : Lev re tok k) (g : Good s) (hm : mu s.stack ≤ k) : NF (colgroupElse re tok s) := by
  unfold colgroupElse
  refine NF.bind (nf_cur _) fun e he => NF.ite (fun hi => ?_) fun _ => NF.ok _
  obtain ⟨l, hl⟩ := cur_ok he
  refine NF.bind (nf_pop _) fun s' hs => ?_
  obtain ⟨e', h1, h2⟩ := pop_ok hs
  rw [h2]
  refine L.less ⟨g.1, g.2, by gm g⟩ hm ?_
  rw [hl] at h1
  cases h1
  rw [hl]
  exact mu_tail (Or.inr (isFmt_is (by decide) hi))

theorem lev_columnGroup (L : Lev re tok k) (hne : tok ≠ .eof) (g : Good s) (hm : mu s.stack ≤ k) : NF (onInColumnGroup re tok s) := by
  have hc : NF (colgroupElse re tok s) := lev_colgroupElse L g hm
  unfold onInColumnGroup
  split
  · nf
  · nf
  · nf
  · nf
  · nf
  · exact absurd rfl hne

theorem lev_leaveBody (L : Lev re tok k) (g : Good s) (hm : mu s.stack ≤ k) : NF (leaveBody re tok s) := by
  unfold leaveBody
  refine NF.bind (nf_inScope _ _ _) fun b hb => NF.ite (fun hbt => ?_) fun _ => NF.ok _
  refine NF.bind (nf_SbackTo _ _) fun s1 h1 => NF.bind (nf_pop _) fun s2 h2 => ?_
  obtain ⟨st, rfl, hs, e, st', rfl, hi⟩ := SbackTo_ok h1
  obtain ⟨e', h3, h4⟩ := pop_ok h2
  rw [h4]
  refine L.less ⟨g.1, g.2, by gm g⟩ hm ?_
  cases h3
  exact Nat.lt_of_lt_of_le (mu_tail (Or.inr (isFmt_isIn (by decide) hi))) (mu_sublist hs.sublist)

theorem lev_tableBody (L : Lev re tok k) (hne : tok ≠ .eof) (g : Good s) (hm : mu s.stack ≤ k) : NF (onInTableBody re tok s) := by
  have ht : NF (onInTable re tok s) := lev_table L hne g hm
  have hl : NF (leaveBody re tok s) := lev_leaveBody L g hm
  unfold onInTableBody
  split
  · next t a f =>
    refine NF.ite (fun _ => by nf) fun _ => NF.ite (fun hc => ?_) fun _ => by nf
    exact NF.bind (nf_SbackTo _ _) fun s1 h1 => NF.bind (nf_insertHtml _ _ _) fun s' h => L.row t a f rfl hc _ rfl (topHtml_insert h _)
  · nf
  · nf

theorem lev_popRow (L : Lev re tok k) (g : Good s) (hm : mu s.stack ≤ k) {s' : S} (h : popRow s = .ok s') : NF (re tok s') := by
  unfold popRow at h
  cases h1 : s.backTo rowContext with
  | error e => simp [h1, Bind.bind, Except.bind] at h
  | ok s1 =>
    cases h2 : assertCur s1 .tr with
    | error e => simp [h1, h2, Bind.bind, Except.bind] at h
    | ok u =>
      cases h3 : pop s1 with
      | error e => simp [h1, h2, h3, Bind.bind, Except.bind] at h
      | ok s2 =>
        simp only [h1, h2, h3, Bind.bind, Except.bind] at h
        cases h
        obtain ⟨st, rfl, hs, e, st', rfl, hi⟩ := SbackTo_ok h1
        obtain ⟨e', h4, h5⟩ := pop_ok h3
        rw [h5]
        refine L.less ⟨g.1, g.2, by gm g⟩ hm ?_
        cases h4
        exact Nat.lt_of_lt_of_le (mu_tail (Or.inr (isFmt_isIn (by decide) hi))) (mu_sublist hs.sublist)

theorem lev_leaveRow (L : Lev re tok k) (g : Good s) (hm : mu s.stack ≤ k) : NF (leaveRow re tok s) := by
  unfold leaveRow
  refine NF.bind (nf_inScope _ _ _) fun b hb => NF.ite (fun hbt => ?_) fun _ => NF.ok _
  exact NF.bind (nf_popRow _) fun s1 h1 => lev_popRow L g hm h1

theorem lev_row (L : Lev re tok k) (hne : tok ≠ .eof) (g : Good s) (hm : mu s.stack ≤ k) : NF (onInRow re tok s) := by
  have ht : NF (onInTable re tok s) := lev_table L hne g hm
  have hl : NF (leaveRow re tok s) := lev_leaveRow L g hm
  unfold onInRow
  split
  · nf
  · refine NF.ite (fun _ => by nf) fun _ => NF.ite (fun _ => by nf) fun _ => NF.ite (fun _ => ?_) fun _ => by nf
    refine NF.bind (nf_inScope _ _ _) fun b hb => NF.ite (fun hbt => ?_) fun _ => NF.ok _
    exact NF.bind (nf_inScope _ _ _) fun _ _ => NF.bind (nf_popRow _) fun s1 h1 => lev_popRow L g hm h1
  · nf

theorem mu_pos {p : Entry → Bool} {l : List Entry} (hp : ∀ e, p e = true → isFmt e.tag = false) (h : l.any p = true) : 0 < mu l := by
  obtain ⟨e, he, hpe⟩ := List.any_eq_true.1 h
  exact List.countP_pos_iff.2 ⟨e, he, by simp [hp e hpe]⟩

theorem popUntil_none {p : Entry → Bool} {l : List Entry} (h : l.any p = false) : popUntil p l = [] := by
  induction l with
  | nil => rfl
  | cons e l ih =>
    simp only [List.any_cons, Bool.or_eq_false_iff] at h
    unfold popUntil
    rw [if_neg (by simp [h.1])]
    exact ih h.2

theorem mu_popImplied {p q : Entry → Bool} {l : List Entry} (hp : ∀ e, p e = true → isFmt e.tag = false) (h : 0 < mu l) :
    mu (popUntil p (implied q l)) < mu l := by
  cases ha : (implied q l).any p with
  | true => exact Nat.lt_of_lt_of_le (mu_popUntil hp ha) (mu_sublist (implied_suffix _ _).sublist)
  | false => rw [popUntil_none ha]; exact h

theorem lev_closeCell (L : Lev re tok k) (g : Good s) (hm : mu s.stack ≤ k) (hi : 0 < mu s.stack) :
    ∀ s', closeCell s = .ok s' → NF (re tok s') := by
  intro s' hs
  unfold closeCell at hs
  cases hc : cur s.implied with
  | error e => simp [hc, Bind.bind, Except.bind] at hs
  | ok e =>
    simp only [hc, Bind.bind, Except.bind] at hs
    cases hs
    refine L.less ?_ hm ?_
    · exact ⟨g.1, g.2, by gm g⟩
    · exact mu_popImplied (fun e he => isFmt_isIn (by decide) he) hi

theorem isTag_iff {e : Entry} {t : Tag} : e.isTag t = true ↔ e.ns = .html ∧ e.tag = t := by simp [Entry.isTag]

/-- A tag that is none of a formatting element. -/
theorem isFmt_mem {t : Tag} {l : List K} (hl : ∀ k ∈ l, isFmt (.k k) = false) (h : t.mem l = true) : isFmt t = false := by
  obtain ⟨k, hk, rfl⟩ := mem_iff.1 h
  exact hl k hk

theorem lev_cell (L : Lev re tok k) (hne : tok ≠ .eof) (g : Good s) (hm : mu s.stack ≤ k) : NF (onInCell re tok s) := by
  have hb : NF (onInBody re tok s) := nf_onInBody (L.bodyRe hne g hm)
  unfold onInCell
  split
  · refine NF.ite (fun _ => ?_) fun _ => hb
    refine NF.bind (nf_inScope _ _ _) fun b hb => NF.ite (fun hbt => ?_) fun _ => NF.ok _
    subst hbt
    exact NF.bind (nf_closeCell _) (lev_closeCell L g hm (mu_pos (fun e he => isFmt_isIn (by decide) he) (inScope_any hb)))
  · refine NF.ite (fun _ => by nf) fun _ => NF.ite (fun _ => by nf) fun _ => NF.ite (fun ht => ?_) fun _ => hb
    refine NF.bind (nf_inScope _ _ _) fun b hb => NF.ite (fun hbt => ?_) fun _ => NF.ok _
    subst hbt
    refine NF.bind (nf_closeCell _) (lev_closeCell L g hm (mu_pos (fun e he => ?_) (inScope_any hb)))
    rw [(isTag_iff.1 he).2]
    exact isFmt_mem (by decide) ht
  · exact hb

theorem lev_closeSelect (L : Lev re tok k) (g : Good s) (hm : mu s.stack ≤ k) : ∀ s', closeSelect s = .ok s' → NF (re tok s') := by
  intro s' hs
  obtain ⟨m, rfl, hr⟩ := reset_ok hs
  refine L.less ⟨g.1, g.2, (resetMode_ne g.tmpl hr).2⟩ hm ?_
  cases ha : s.stack.any (·.is .select) with
  | true => exact mu_popUntil (fun e he => isFmt_is (by decide) he) ha
  | false =>
    have : (s.popUntil (·.is .select)).stack = [] := popUntil_none ha
    rw [this] at hr
    cases hr

theorem lev_select (L : Lev re tok k) (hne : tok ≠ .eof) (g : Good s) (hm : mu s.stack ≤ k) : NF (onInSelect re tok s) := by
  unfold onInSelect
  split
  · nf
  · nf
  · nf
  · unfold selectStart
    nf
    exact lev_closeSelect L g hm _ (by assumption)
  · unfold selectEnd
    nf
  · exact absurd rfl hne

theorem lev_selectInTable (L : Lev re tok k) (hne : tok ≠ .eof) (g : Good s) (hm : mu s.stack ≤ k) : NF (onInSelectInTable re tok s) := by
  have hs : NF (onInSelect re tok s) := lev_select L hne g hm
  unfold onInSelectInTable
  nf
  all_goals exact lev_closeSelect L g hm _ (by assumption)

theorem lev_afterHead (L : Lev re tok k) : NF (onAfterHead re tok s) := by
  have h : NF (afterHeadElse re tok s) := by
    unfold afterHeadElse
    exact NF.bind (nf_insertHtml _ _ _) fun s' h => L.body _ rfl (topHtml_insert h _)
  unfold onAfterHead
  nf

theorem lev_head (L : Lev re tok k) (g : Good s) (hm : mu s.stack ≤ k) : NF (onInHead re tok s) := by
  have h : NF (inHeadElse re tok s) := by
    unfold inHeadElse
    refine NF.bind (nf_assertCur _ _) fun u hu => NF.bind (nf_pop _) fun s' hs => ?_
    obtain ⟨e, l, h1, h2⟩ := assertCur_ok hu
    obtain ⟨e', h3, h4⟩ := pop_ok hs
    rw [h4]
    refine L.less ⟨g.1, g.2, by gm g⟩ hm ?_
    rw [h1] at h3
    cases h3
    rw [h1]
    exact mu_tail (Or.inr (isFmt_is (by decide) h2))
  unfold onInHead
  nf

theorem lev_headNoscript (L : Lev re tok k) (g : Good s) (hm : mu s.stack ≤ k) : NF (onInHeadNoscript re tok s) := by
  have hh : NF (onInHead re tok s) := lev_head L g hm
  have h : NF (noscriptElse re tok s) := by
    unfold noscriptElse
    refine NF.bind (nf_popNoscript _) fun s' hs => ?_
    unfold popNoscript at hs
    cases h1 : assertCur s .noscript with
    | error e => simp [h1, Bind.bind, Except.bind] at hs
    | ok u =>
      cases h2 : pop s with
      | error e => simp [h1, h2, Bind.bind, Except.bind] at hs
      | ok s1 =>
        cases h3 : assertCur s1 .head with
        | error e => simp [h1, h2, h3, Bind.bind, Except.bind] at hs
        | ok u =>
          simp only [h1, h2, h3, Bind.bind, Except.bind] at hs
          cases hs
          obtain ⟨e, l, h4, h5⟩ := assertCur_ok h1
          obtain ⟨e', h6, h7⟩ := pop_ok h2
          rw [h7]
          refine L.less ⟨g.1, g.2, by gm g⟩ hm ?_
          rw [h4] at h6
          cases h6
          rw [h4]
          exact mu_tail (Or.inr (isFmt_is (by decide) h5))
  unfold onInHeadNoscript
  nf

theorem nf_onText (hne : tok ≠ .eof) : NF (onText re tok s) := by
  unfold onText
  split
  · nf
  · exact absurd rfl hne
  · nf
  · nf

theorem nf_onInFrameset : NF (onInFrameset tok s) := by unfold onInFrameset; nf
theorem nf_onAfterFrameset : NF (onAfterFrameset tok s) := by unfold onAfterFrameset; nf

theorem bodyRe_htmlStart {t : Tag} {a : List At} {f : Bool} (h : t.is .html = true) : BodyRe re (.start t a f) s := by
  rw [is_iff] at h
  subst h
  constructor
  · intro t a f h hi; cases h; cases hi
  · intro t h; cases h
  · intro t h; cases h
  · intro h; cases h

theorem nf_onAfterAfterFrameset : NF (onAfterAfterFrameset re tok s) := by
  unfold onAfterAfterFrameset
  split
  · nf
  · exact nf_onInBody bodyRe_doctype
  · exact NF.ite (fun _ => nf_onInBody bodyRe_char) fun _ => NF.ok _
  · exact NF.ite (fun h => nf_onInBody (bodyRe_htmlStart h)) fun _ => by nf
  · nf
  · nf

/-- Modes that do not come to a mode of their own height. -/
def baseModes : List Mode :=
  [.inHead, .inHeadNoscript, .afterHead, .inBody, .text, .inTable, .inCaption, .inColumnGroup, .inTableBody, .inRow, .inCell, .inSelect,
   .inSelectInTable, .inFrameset, .afterFrameset, .afterAfterFrameset]

theorem lev_base (tbl : List Nat → Bool) (L : Lev re tok k) (hne : tok ≠ .eof) (g : Good s) (hm : mu s.stack ≤ k)
    (hb : s.mode ∈ baseModes) : NF (byMode tbl re tok s) := by
  unfold byMode
  split <;> rename_i h
  · rw [h] at hb; exact absurd hb (by decide)
  · rw [h] at hb; exact absurd hb (by decide)
  · rw [h] at hb; exact absurd hb (by decide)
  · exact lev_head L g hm
  · exact lev_headNoscript L g hm
  · exact lev_afterHead L
  · exact nf_onInBody (L.bodyRe hne g hm)
  · exact nf_onText hne
  · exact lev_table L hne g hm
  · rw [h] at hb; exact absurd hb (by decide)
  · exact lev_caption L hne g hm
  · exact lev_columnGroup L hne g hm
  · exact lev_tableBody L hne g hm
  · exact lev_row L hne g hm
  · exact lev_cell L hne g hm
  · exact lev_select L hne g hm
  · exact lev_selectInTable L hne g hm
  · rw [h] at hb; exact absurd hb (by decide)
  · rw [h] at hb; exact absurd hb (by decide)
  · exact nf_onInFrameset
  · exact nf_onAfterFrameset
  · rw [h] at hb; exact absurd hb (by decide)
  · exact nf_onAfterAfterFrameset

end Verif.Proof.HtmlTree
