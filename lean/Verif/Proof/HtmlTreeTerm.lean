import Verif.Model.HtmlTree
import Mathlib.Tactic.SplitIfs

/-! Helper lemmas for C106: no outcome is the bound on the number of reprocessed tokens. -/

namespace Verif.Proof.HtmlTree
open Verif.Model.HtmlTree

/-- The outcome is not that the bound has been reached. -/
def NF {α : Type} (r : R α) : Prop := r ≠ .error .fuel

theorem is_iff {t : Tag} {k : K} : t.is k = true ↔ t = .k k := by
  cases t <;> simp [Tag.is]

theorem mem_iff {t : Tag} {l : List K} : t.mem l = true ↔ ∃ k ∈ l, t = .k k := by
  cases t <;> simp [Tag.mem]

theorem NF.ok {α : Type} (a : α) : NF (.ok a : R α) := by simp [NF]

theorem NF.err {α : Type} {e : Fail} (h : e ≠ .fuel) : NF (.error e : R α) := by simpa [NF] using h

theorem NF.bind {α β : Type} {x : R α} {f : α → R β} (hx : NF x) (hf : ∀ a, x = .ok a → NF (f a)) : NF (x >>= f) := by
  cases x with
  | error e => simpa [NF, Bind.bind, Except.bind] using hx
  | ok a => simpa [Bind.bind, Except.bind] using hf a rfl

theorem NF.ite {α : Type} {c : Prop} [Decidable c] {a b : R α} (ha : c → NF a) (hb : ¬ c → NF b) : NF (if c then a else b) := by
  by_cases h : c
  · rw [if_pos h]; exact ha h
  · rw [if_neg h]; exact hb h

/-- Where there is a result, it has a property. -/
def Ens {α : Type} (P : α → Prop) (r : R α) : Prop := ∀ a, r = .ok a → P a

theorem Ens.get {α : Type} {P : α → Prop} {r : R α} (h : Ens P r) {a : α} (ha : r = .ok a) : P a := h a ha

theorem Ens.ok {α : Type} {P : α → Prop} {a : α} (h : P a) : Ens P (.ok a : R α) := by
  intro b hb; cases hb; exact h

theorem Ens.err {α : Type} {P : α → Prop} {e : Fail} : Ens P (.error e : R α) := by
  intro b hb; cases hb

theorem Ens.ite {α : Type} {P : α → Prop} {c : Prop} [Decidable c] {a b : R α} (ha : c → Ens P a) (hb : ¬ c → Ens P b) :
    Ens P (if c then a else b) := by
  by_cases h : c
  · rw [if_pos h]; exact ha h
  · rw [if_neg h]; exact hb h

theorem Ens.bind {α β : Type} {Q : α → Prop} {P : β → Prop} {x : R α} {f : α → R β} (hx : Ens Q x) (hf : ∀ a, Q a → Ens P (f a)) :
    Ens P (x >>= f) := by
  cases x with
  | error e => intro b hb; cases hb
  | ok a => exact hf a (hx a rfl)

theorem Ens.mono {α : Type} {P Q : α → Prop} {r : R α} (h : Ens P r) (hi : ∀ a, P a → Q a) : Ens Q r := fun a ha => hi a (h a ha)

theorem nf_cur (s : S) : NF (cur s) := by unfold cur; split <;> simp [NF]
theorem nf_pop (s : S) : NF (pop s) := by unfold pop; split <;> simp [NF]
theorem nf_front (s : S) : NF (front s) := by unfold front; split <;> simp [NF]
theorem nf_second (s : S) : NF (second s) := by unfold second; split <;> simp [NF]

theorem nf_inScope (p q : Entry → Bool) (l : List Entry) : NF (inScope p q l) := by
  induction l with
  | nil => simp [inScope, NF]
  | cons e l ih => unfold inScope; split_ifs <;> first | exact ih | simp [NF]

theorem nf_link (d : Dom) (pl : Place) (x : Nat) : NF (link d pl x) := by
  unfold link; split
  · simp [NF]
  · split <;> simp [NF]

theorem nf_moveNode (d : Dom) (pl : Place) (x : Nat) : NF (moveNode d pl x) := by
  unfold moveNode; split
  · simp [NF]
  · split_ifs
    · simp [NF]
    · simp [NF]
    · exact nf_link _ _ _

theorem nf_removeNode (s : S) (n : Nat) : NF (removeNode s n) := by unfold removeNode; split_ifs <;> simp [NF]

theorem nf_resetMode (h : Option Nat) (t : List Mode) (l : List Entry) : NF (resetMode h t l) := by
  induction l with
  | nil => simp [resetMode, NF]
  | cons e l ih =>
    unfold resetMode
    repeat' first | exact NF.ok _ | exact ih | exact NF.err (by decide) | refine NF.ite (fun _ => ?_) (fun _ => ?_) | split

theorem nf_reset (s : S) : NF (reset s) := NF.bind (nf_resetMode _ _ _) fun _ _ => NF.ok _

theorem nf_place (s : S) (e : Entry) : NF (place s e) := by
  unfold place place.fosterTable
  repeat' split
  all_goals first | exact NF.bind (nf_front _) fun _ _ => NF.ok _ | simp [NF]

theorem nf_insertForeign (s : S) (ns : Ns) (t : Tag) (a : List At) : NF (insertForeign s ns t a) :=
  NF.bind (nf_cur _) fun _ _ => NF.bind (nf_place _ _) fun _ _ => NF.bind (nf_link _ _ _) fun _ _ => NF.ok _

theorem nf_insertHtml (s : S) (t : Tag) (a : List At) : NF (insertHtml s t a) := nf_insertForeign _ _ _ _

theorem nf_insertPop (s : S) (t : Tag) (a : List At) : NF (insertPop s t a) := NF.bind (nf_insertHtml _ _ _) fun _ _ => nf_pop _

theorem nf_insertChar (s : S) (c : Nat) : NF (insertChar s c) := by
  refine NF.bind (nf_cur _) fun _ _ => NF.bind (nf_place _ _) fun _ _ => ?_
  repeat' split
  all_goals first | exact NF.bind (nf_link _ _ _) fun _ _ => NF.ok _ | simp [NF]

theorem nf_commentAt (s : S) (pl : Place) (t : List Nat) : NF (commentAt s pl t) := NF.bind (nf_link _ _ _) fun _ _ => NF.ok _

theorem nf_insertComment (s : S) (t : List Nat) : NF (insertComment s t) :=
  NF.bind (nf_cur _) fun _ _ => NF.bind (nf_place _ _) fun _ _ => nf_commentAt _ _ _

theorem nf_reopen (s : S) (l : List Entry) : NF (reopen s l) := by
  induction l generalizing s with
  | nil => simp [reopen, NF]
  | cons e l ih => exact NF.bind (nf_insertHtml _ _ _) fun _ _ => NF.bind (nf_cur _) fun _ _ => ih _

theorem nf_reconstruct (s : S) : NF (reconstruct s) := nf_reopen _ _

theorem nf_assertCur (s : S) (t : K) : NF (assertCur s t) := by
  refine NF.bind (nf_cur _) fun _ _ => ?_
  split_ifs <;> simp [NF]

theorem nf_popToHtml (l : List Entry) : NF (popToHtml l) := by
  induction l with
  | nil => simp [popToHtml, NF]
  | cons e l ih => unfold popToHtml; split_ifs <;> first | exact ih | simp [NF]

theorem nf_backTo (c : List K) (l : List Entry) : NF (backTo c l) := by
  induction l with
  | nil => simp [backTo, NF]
  | cons e l ih => unfold backTo; split_ifs <;> first | exact ih | simp [NF]

theorem nf_SbackTo (s : S) (c : List K) : NF (s.backTo c) := NF.bind (nf_backTo _ _) fun _ _ => NF.ok _

theorem nf_otherEnd (s : S) (t : Tag) (l : List Entry) : NF (otherEnd s t l) := by
  induction l with
  | nil => simp [otherEnd, NF]
  | cons e l ih =>
    unfold otherEnd; split_ifs
    · exact NF.bind (nf_cur _) fun _ _ => NF.ok _
    · simp [NF]
    · exact ih

theorem nf_ddLoop (s : S) (l : List Entry) : NF (ddLoop s l) := by
  induction l with
  | nil => simp [ddLoop, NF]
  | cons e l ih =>
    unfold ddLoop; split_ifs
    · exact NF.bind (nf_cur _) fun _ _ => NF.ok _
    · exact NF.bind (nf_cur _) fun _ _ => NF.ok _
    · simp [NF]
    · exact ih

theorem nf_closeP (s : S) : NF (closeP s) := NF.bind (nf_cur _) fun _ _ => NF.ok _

theorem nf_closePIn (s : S) : NF (closePIn s) := by
  refine NF.bind (nf_inScope _ _ _) fun b _ => ?_
  split_ifs
  · exact nf_closeP _
  · simp [NF]

theorem nf_htmlStart (s : S) (a : List At) : NF (htmlStart s a) := by
  unfold htmlStart; split_ifs
  · simp [NF]
  · exact NF.bind (nf_front _) fun _ _ => NF.ok _

theorem nf_rawText (s : S) (st : Sw) (t : Tag) (a : List At) : NF (rawText s st t a) :=
  NF.bind (nf_insertHtml _ _ _) fun _ _ => NF.ok _

theorem nf_insertHead (s : S) (a : List At) : NF (insertHead s a) :=
  NF.bind (nf_insertHtml _ _ _) fun _ _ => NF.bind (nf_cur _) fun _ _ => NF.ok _

theorem nf_insertRoot (s : S) (a : List At) : NF (insertRoot s a) := NF.bind (nf_link _ _ _) fun _ _ => NF.ok _

theorem nf_inHeadStart (t : Tag) (a : List At) (s : S) : NF (inHeadStart t a s) := by
  unfold inHeadStart; split_ifs
  · exact nf_insertPop _ _ _
  · exact nf_rawText _ _ _ _
  · exact nf_rawText _ _ _ _
  · exact nf_rawText _ _ _ _
  · exact NF.bind (nf_insertHtml _ _ _) fun _ _ => NF.ok _

theorem nf_templateEnd (s : S) : NF (templateEnd s) := by
  unfold templateEnd; split_ifs
  · refine NF.bind (nf_cur _) fun _ _ => ?_
    dsimp only
    split
    · simp [NF]
    · exact nf_reset _
  · simp [NF]

theorem nf_popNoscript (s : S) : NF (popNoscript s) :=
  NF.bind (nf_assertCur _ _) fun _ _ => NF.bind (nf_pop _) fun _ _ => NF.bind (nf_assertCur _ _) fun _ _ => NF.ok _

theorem nf_popRow (s : S) : NF (popRow s) :=
  NF.bind (nf_SbackTo _ _) fun _ _ => NF.bind (nf_assertCur _ _) fun _ _ => NF.bind (nf_pop _) fun _ _ => NF.ok _

theorem nf_insertFmt (x : Entry) (b : Bookmark) (l : List Fmt) : NF (insertFmt x b l) := by
  induction l with
  | nil => cases b <;> simp [insertFmt, NF]
  | cons f l ih =>
    cases b <;> cases f <;> unfold insertFmt <;> (try split_ifs) <;>
      first | simp [NF]; done | exact NF.bind ih fun _ _ => NF.ok _

theorem nf_moveKids (n : Nat) (l : List Nat) (d : Dom) : NF (moveKids n l d) := by
  induction l generalizing d with
  | nil => simp [moveKids, NF]
  | cons x l ih => exact NF.bind (nf_moveNode _ _ _) fun _ _ => ih _

theorem nf_insertAbove (n : Nat) (x : Entry) (l : List Entry) : NF (insertAbove n x l) := by
  induction l with
  | nil => simp [insertAbove, NF]
  | cons e l ih =>
    unfold insertAbove; split_ifs
    · simp [NF]
    · exact NF.bind ih fun _ _ => NF.ok _

theorem nf_innerLoop (b : Nat) (l : List Entry) (i last : Nat) (bm : Bookmark) (s : S) : NF (innerLoop b l i last bm s) := by
  induction l generalizing i last bm s with
  | nil => simp [innerLoop, NF]
  | cons e l ih =>
    unfold innerLoop
    dsimp only
    split_ifs
    all_goals first
      | exact NF.bind (nf_moveNode _ _ _) fun _ _ => ih _ _ _ _
      | exact NF.bind (nf_removeNode _ _) fun _ _ => ih _ _ _ _

theorem nf_adopt (s : S) (fe fb : Entry) : NF (adopt s fe fb) := by
  unfold adopt; split
  · exact NF.bind (nf_innerLoop _ _ _ _ _ _) fun _ _ => NF.bind (nf_place _ _) fun _ _ => NF.bind (nf_moveNode _ _ _) fun _ _ =>
      NF.bind (nf_moveKids _ _ _) fun _ _ => NF.bind (nf_link _ _ _) fun _ _ => NF.bind (nf_insertFmt _ _ _) fun _ _ =>
      NF.bind (nf_removeNode _ _) fun _ _ => NF.bind (nf_insertAbove _ _ _) fun _ _ => NF.ok _
  · simp [NF]

theorem nf_outerLoop (t : Tag) (k : Nat) (s : S) : NF (outerLoop t k s) := by
  induction k generalizing s with
  | zero => simp [outerLoop, NF]
  | succ k ih =>
    unfold outerLoop; split
    · simp [NF]
    · split_ifs
      · simp [NF]
      · refine NF.bind (nf_inScope _ _ _) fun b _ => ?_
        split_ifs
        · refine NF.bind (nf_cur _) fun _ _ => ?_
          split
          · simp [NF]
          · exact NF.bind (nf_adopt _ _ _) fun _ _ => ih _
        · simp [NF]

theorem nf_adoption (s : S) (t : Tag) : NF (adoption s t) := by
  refine NF.bind (nf_cur _) fun e _ => ?_
  split_ifs
  · exact NF.bind (nf_pop _) fun _ _ => NF.ok _
  · exact nf_outerLoop _ _ _

theorem nf_insertFmtEl (s : S) (t : Tag) (a : List At) : NF (insertFmtEl s t a) :=
  NF.bind (nf_insertHtml _ _ _) fun _ _ => NF.bind (nf_cur _) fun _ _ => NF.ok _

theorem nf_liStart (s : S) (t : Tag) (a : List At) : NF (liStart s t a) := by
  unfold liStart; split
  · simp [NF]
  · split_ifs
    · simp [NF]
    · simp [NF]
    · exact NF.bind (nf_closePIn _) fun _ _ => nf_insertHtml _ _ _

theorem nf_closeCaption (s : S) : NF (closeCaption s) := NF.bind (nf_cur _) fun _ _ => NF.ok _
theorem nf_closeCell (s : S) : NF (closeCell s) := NF.bind (nf_cur _) fun _ _ => NF.ok _
theorem nf_closeSelect (s : S) : NF (closeSelect s) := nf_reset _

theorem nf_insertChars (l : List Nat) (s : S) : NF (insertChars l s) := by
  induction l generalizing s with
  | nil => simp [insertChars, NF]
  | cons c l ih => exact NF.bind (nf_insertChar _ _) fun _ _ => ih _

theorem nf_popForeign (l : List Entry) : NF (popForeign l) := by
  induction l with
  | nil => simp [popForeign, NF]
  | cons e l ih =>
    cases l with
    | nil => simp [popForeign, NF]
    | cons e2 l => unfold popForeign; split_ifs <;> first | exact ih | simp [NF]

/-- Close a goal `NF _` by going through binds, conditions and matches. -/
macro "nf" : tactic => `(tactic| repeat' first
  | with_reducible exact NF.ok _
  | with_reducible assumption
  | with_reducible exact nf_cur _ | with_reducible exact nf_pop _ | with_reducible exact nf_front _ | with_reducible exact nf_second _ | with_reducible exact nf_inScope _ _ _ | with_reducible exact nf_removeNode _ _
  | with_reducible exact nf_reset _ | with_reducible exact nf_insertForeign _ _ _ _ | with_reducible exact nf_insertHtml _ _ _ | with_reducible exact nf_insertPop _ _ _
  | with_reducible exact nf_insertChar _ _ | with_reducible exact nf_commentAt _ _ _ | with_reducible exact nf_insertComment _ _ | with_reducible exact nf_reconstruct _ | with_reducible exact nf_assertCur _ _
  | with_reducible exact nf_popToHtml _ | with_reducible exact nf_SbackTo _ _ | with_reducible exact nf_otherEnd _ _ _ | with_reducible exact nf_ddLoop _ _ | with_reducible exact nf_closeP _
  | with_reducible exact nf_closePIn _ | with_reducible exact nf_htmlStart _ _ | with_reducible exact nf_rawText _ _ _ _ | with_reducible exact nf_insertHead _ _ | with_reducible exact nf_insertRoot _ _
  | with_reducible exact nf_inHeadStart _ _ _ | with_reducible exact nf_templateEnd _ | with_reducible exact nf_popNoscript _ | with_reducible exact nf_popRow _ | with_reducible exact nf_adoption _ _
  | with_reducible exact nf_insertFmtEl _ _ _ | with_reducible exact nf_liStart _ _ _ | with_reducible exact nf_closeCaption _ | with_reducible exact nf_closeCell _ | with_reducible exact nf_closeSelect _
  | with_reducible exact nf_insertChars _ _ | with_reducible exact nf_popForeign _
  | exact NF.err (by decide)
  | with_reducible refine NF.bind ?_ (fun _ _ => ?_)
  | with_reducible refine NF.ite (fun _ => ?_) (fun _ => ?_)
  | split)

theorem nf_bodyStart2 {re : Re} {t : Tag} {a : List At} {f : Bool} {s : S}
    (h : t.is .image = true → NF (re (.start (.k .img) a f) s)) : NF (bodyStart2 re t a f s) := by
  unfold bodyStart2
  nf
  all_goals (apply h; assumption)

/-- What "in body" may do with `reprocess_token`. -/
structure BodyRe (re : Re) (tok : Tok) (s : S) : Prop where
  image : ∀ t a f, tok = .start t a f → t.is .image = true → NF (re (.start (.k .img) a f) s)
  br : ∀ t, tok = .fin t → t.is .br = true → NF (re (.start (.k .br) [] false) s)
  html : ∀ t, tok = .fin t → t.is .html = true → NF (re tok (s.to .afterBody))
  eof : tok = .eof → NF (templateEof re s)

theorem nf_bodyStart {re : Re} {t : Tag} {a : List At} {f : Bool} {s : S}
    (h : t.is .image = true → NF (re (.start (.k .img) a f) s)) : NF (bodyStart re t a f s) := by
  have h2 : NF (bodyStart2 re t a f s) := nf_bodyStart2 h
  unfold bodyStart
  nf
  all_goals
    apply nf_bodyStart2
    intro hi
    rw [is_iff] at hi
    subst hi
    simp_all [Tag.is]

theorem nf_bodyEnd {re : Re} {t : Tag} {s : S} (hb : t.is .br = true → NF (re (.start (.k .br) [] false) s))
    (hh : t.is .html = true → NF (re (.fin t) (s.to .afterBody))) : NF (bodyEnd re t s) := by
  unfold bodyEnd
  nf
  all_goals first | exact hb (by assumption) | exact hh (by assumption)

theorem nf_onInBody {re : Re} {tok : Tok} {s : S} (h : BodyRe re tok s) : NF (onInBody re tok s) := by
  unfold onInBody
  split
  · nf
  · nf
  · nf
  · exact nf_bodyStart (h.image _ _ _ rfl)
  · exact nf_bodyEnd (h.br _ rfl) (h.html _ rfl)
  · exact NF.ite (fun _ => h.eof rfl) (fun _ => NF.ok _)

theorem nf_inTableElse {re : Re} {tok : Tok} {s : S} (h : BodyRe re tok { s with foster := true }) : NF (inTableElse re tok s) := by
  unfold inTableElse
  exact NF.bind (nf_onInBody h) fun _ _ => NF.ok _

theorem bodyRe_char {re : Re} {c : Nat} {s : S} : BodyRe re (.char c) s := by constructor <;> intros <;> simp_all
theorem bodyRe_comment {re : Re} {c : List Nat} {s : S} : BodyRe re (.comment c) s := by constructor <;> intros <;> simp_all
theorem bodyRe_doctype {re : Re} {d} {s : S} : BodyRe re (.doctype d) s := by constructor <;> intros <;> simp_all

theorem nf_fosterChars (re : Re) (l : List Nat) (s : S) : NF (fosterChars re l s) := by
  induction l generalizing s with
  | nil => exact NF.ok _
  | cons c l ih => exact NF.bind (nf_inTableElse bodyRe_char) fun _ _ => ih _

/-! ## The measure -/

/-- A formatting element. -/
def isFmt (t : Tag) : Bool := t.mem (.a :: .nobr :: fmtTags)

/-- The number of the elements that are not HTML formatting elements. -/
def mu (l : List Entry) : Nat := l.countP fun e => !(e.ns == .html && isFmt e.tag)

theorem mu_sublist {a b : List Entry} (h : a.Sublist b) : mu a ≤ mu b := h.countP_le

theorem mu_tail {e : Entry} {l : List Entry} (h : e.ns ≠ .html ∨ isFmt e.tag = false) : mu l < mu (e :: l) := by
  unfold mu
  rw [List.countP_cons_of_pos]
  · exact Nat.lt_succ_self _
  · rcases h with h | h
    · simp [h]
    · simp [h]

theorem mu_le (l : List Entry) : mu l ≤ l.length := List.countP_le_length

theorem popUntil_suffix (p : Entry → Bool) (l : List Entry) : popUntil p l <:+ l := by
  induction l with
  | nil => exact List.suffix_refl _
  | cons e l ih =>
    unfold popUntil; split_ifs
    · exact List.suffix_cons _ _
    · exact ih.trans (List.suffix_cons _ _)

theorem mu_popUntil {p : Entry → Bool} {l : List Entry} (hp : ∀ e, p e = true → isFmt e.tag = false) :
    l.any p = true → mu (popUntil p l) < mu l := by
  induction l with
  | nil => intro h; simp at h
  | cons e l ih =>
    intro h
    unfold popUntil
    split_ifs with he
    · exact mu_tail (Or.inr (hp e he))
    · refine Nat.lt_of_lt_of_le (ih ?_) (mu_sublist (List.sublist_cons_self _ _))
      simpa [he] using h

theorem implied_suffix (p : Entry → Bool) (l : List Entry) : implied p l <:+ l := by
  induction l with
  | nil => exact List.suffix_refl _
  | cons e l ih =>
    unfold implied; split_ifs
    · exact List.suffix_refl _
    · exact ih.trans (List.suffix_cons _ _)
    · exact List.suffix_refl _

theorem inScope_any {p q : Entry → Bool} {l : List Entry} (h : inScope p q l = .ok true) : l.any q = true := by
  induction l with
  | nil => simp [inScope] at h
  | cons e l ih =>
    unfold inScope at h
    split_ifs at h with h1 h2
    · simp [h1]
    · cases h
    · simp [ih h]

/-- `implied` keeps an element that it does not close. -/
theorem implied_any {p q : Entry → Bool} {l : List Entry}
    (hq : ∀ e, q e = true → e.isIn [.dd, .dt, .li, .optgroup, .option, .p, .rb, .rp, .rt, .rtc] = false) (h : l.any q = true) :
    (implied p l).any q = true := by
  induction l with
  | nil => simp at h
  | cons e l ih =>
    unfold implied
    split_ifs with h1 h2
    · exact h
    · apply ih
      cases hqe : q e with
      | true => rw [hq e hqe] at h2; cases h2
      | false => simpa [hqe] using h
    · exact h

theorem backTo_spec {c : List K} {l st : List Entry} (h : backTo c l = .ok st) : st <:+ l ∧ ∃ e st', st = e :: st' ∧ e.isIn c = true := by
  induction l with
  | nil => simp [backTo] at h
  | cons e l ih =>
    unfold backTo at h
    split_ifs at h with he
    · cases h; exact ⟨List.suffix_refl _, e, l, rfl, he⟩
    · exact ⟨(ih h).1.trans (List.suffix_cons _ _), (ih h).2⟩

theorem popForeign_spec {l st : List Entry} (h : popForeign l = .ok st) : st <:+ l.tail ∧ l ≠ [] := by
  induction l with
  | nil => simp [popForeign] at h
  | cons e l ih =>
    cases l with
    | nil => simp [popForeign] at h
    | cons e2 l =>
      unfold popForeign at h
      split_ifs at h
      · cases h; exact ⟨List.suffix_refl _, by simp⟩
      · exact ⟨(ih h).1.trans (List.suffix_cons _ _), by simp⟩

/-- What is known when a token is reprocessed. -/
structure Good (s : S) : Prop where
  orig : s.orig ≠ .text ∧ s.orig ≠ .inTableText
  tmpl : ∀ m ∈ s.tmpl, m ≠ .text ∧ m ≠ .inTableText
  mode : s.mode ≠ .inTableText

/-- The mode of a state is not "in table text". -/
macro "gm" g:ident : tactic => `(tactic| first | exact ($g).mode | (simp only [S.to]; exact ($g).mode) | (simp [S.to]; done))

theorem insertForeign_ok {s s' : S} {ns : Ns} {t : Tag} {a : List At} (h : insertForeign s ns t a = .ok s') :
    ∃ d n, s' = { s with dom := d, stack := ⟨n, ns, t, a⟩ :: s.stack } := by
  unfold insertForeign at h
  cases hc : cur s with
  | error e => simp [hc, Bind.bind, Except.bind] at h
  | ok e =>
    cases hp : place s e with
    | error e => simp [hc, hp, Bind.bind, Except.bind] at h
    | ok pl =>
      simp only [hc, hp, Bind.bind, Except.bind, create] at h
      cases hl : link (s.dom ++ [⟨.elem ns t a, none, []⟩]) pl s.dom.length with
      | error e => simp [hl] at h
      | ok d =>
        simp only [hl] at h
        cases h
        exact ⟨_, _, rfl⟩

theorem insertHtml_ok {s s' : S} {t : Tag} {a : List At} (h : insertHtml s t a = .ok s') :
    ∃ d n, s' = { s with dom := d, stack := ⟨n, .html, t, a⟩ :: s.stack } := insertForeign_ok h

end Verif.Proof.HtmlTree
