import Verif.Proof.HtmlTreeTerm4

/-! Helper lemmas for C106: what the tree construction keeps between tokens. -/

namespace Verif.Proof.HtmlTree
open Verif.Model.HtmlTree

/-- The modes that are remembered have not changed. -/
def Same (s s' : S) : Prop := s'.orig = s.orig ∧ s'.tmpl = s.tmpl ∧ s'.mode = s.mode

theorem Same.refl (s : S) : Same s s := ⟨rfl, rfl, rfl⟩

theorem Same.trans {a b c : S} (h1 : Same a b) (h2 : Same b c) : Same a c :=
  ⟨h2.1.trans h1.1, h2.2.1.trans h1.2.1, h2.2.2.trans h1.2.2⟩

theorem Ens.triv {α : Type} {r : R α} : Ens (fun _ => True) r := fun _ _ => trivial

variable {s : S}

theorem same_pop : Ens (Same s) (pop s) := by
  unfold pop; split
  · exact Ens.err
  · exact Ens.ok ⟨rfl, rfl, rfl⟩

theorem same_insertForeign {ns : Ns} {t : Tag} {a : List At} : Ens (Same s) (insertForeign s ns t a) := by
  intro s' h
  obtain ⟨d, n, rfl⟩ := insertForeign_ok h
  exact ⟨rfl, rfl, rfl⟩

theorem same_insertHtml {t : Tag} {a : List At} : Ens (Same s) (insertHtml s t a) := same_insertForeign

theorem same_insertPop {t : Tag} {a : List At} : Ens (Same s) (insertPop s t a) :=
  Ens.bind same_insertHtml fun _ h => same_pop.mono fun _ h' => h.trans h'

theorem same_insertChar {c : Nat} : Ens (Same s) (insertChar s c) := by
  intro s' h
  obtain ⟨d, rfl⟩ := grown_insertChar h
  exact ⟨rfl, rfl, rfl⟩

theorem same_commentAt {pl : Place} {t : List Nat} : Ens (Same s) (commentAt s pl t) :=
  Ens.bind (Q := fun _ => True) Ens.triv fun _ _ => Ens.ok ⟨rfl, rfl, rfl⟩

theorem same_insertComment {t : List Nat} : Ens (Same s) (insertComment s t) :=
  Ens.bind (Q := fun _ => True) Ens.triv fun _ _ => Ens.bind (Q := fun _ => True) Ens.triv fun _ _ => same_commentAt

theorem same_reopen {l : List Entry} : Ens (Same s) (reopen s l) := by
  induction l generalizing s with
  | nil => exact Ens.ok (Same.refl _)
  | cons e l ih =>
    exact Ens.bind same_insertHtml fun _ h => Ens.bind (Q := fun _ => True) Ens.triv fun _ _ => ih.mono fun _ h' => Same.trans h h'

theorem same_reconstruct : Ens (Same s) (reconstruct s) := same_reopen.mono fun _ h => h

theorem same_removeNode {n : Nat} : Ens (Same s) (removeNode s n) := by
  unfold removeNode
  exact Ens.ite (fun _ => Ens.ok ⟨rfl, rfl, rfl⟩) fun _ => Ens.err

theorem same_backTo {c : List K} : Ens (Same s) (s.backTo c) :=
  Ens.bind (Q := fun _ => True) Ens.triv fun _ _ => Ens.ok ⟨rfl, rfl, rfl⟩

theorem same_otherEnd {t : Tag} {l : List Entry} : Ens (Same s) (otherEnd s t l) := by
  induction l with
  | nil => exact Ens.err
  | cons e l ih =>
    unfold otherEnd
    refine Ens.ite (fun _ => ?_) fun _ => Ens.ite (fun _ => Ens.ok (Same.refl _)) fun _ => ih
    exact Ens.bind (Q := fun _ => True) Ens.triv fun _ _ => Ens.ok ⟨rfl, rfl, rfl⟩

theorem same_ddLoop {l : List Entry} : Ens (Same s) (ddLoop s l) := by
  induction l with
  | nil => exact Ens.err
  | cons e l ih =>
    unfold ddLoop
    refine Ens.ite (fun _ => ?_) fun _ => Ens.ite (fun _ => ?_) fun _ => Ens.ite (fun _ => Ens.ok (Same.refl _)) fun _ => ih
    all_goals exact Ens.bind (Q := fun _ => True) Ens.triv fun _ _ => Ens.ok ⟨rfl, rfl, rfl⟩

theorem same_closeP : Ens (Same s) (closeP s) :=
  Ens.bind (Q := fun _ => True) Ens.triv fun _ _ => Ens.ok ⟨rfl, rfl, rfl⟩

theorem same_closePIn : Ens (Same s) (closePIn s) :=
  Ens.bind (Q := fun _ => True) Ens.triv fun _ _ => Ens.ite (fun _ => same_closeP) fun _ => Ens.ok (Same.refl _)

theorem same_htmlStart {a : List At} : Ens (Same s) (htmlStart s a) := by
  unfold htmlStart
  exact Ens.ite (fun _ => Ens.ok (Same.refl _)) fun _ => Ens.bind (Q := fun _ => True) Ens.triv fun _ _ => Ens.ok ⟨rfl, rfl, rfl⟩

theorem same_liStart {t : Tag} {a : List At} : Ens (Same s) (liStart s t a) := by
  unfold liStart
  split
  · exact Ens.ok (Same.refl _)
  · exact Ens.ite (fun _ => Ens.ok ⟨rfl, rfl, rfl⟩) fun _ => Ens.ite (fun _ => Ens.ok (Same.refl _)) fun _ =>
      Ens.bind same_closePIn fun _ h => same_insertHtml.mono fun _ h' => h.trans h'

theorem same_insertFmtEl {t : Tag} {a : List At} : Ens (Same s) (insertFmtEl s t a) :=
  Ens.bind same_insertHtml fun _ h => Ens.bind (Q := fun _ => True) Ens.triv fun _ _ => Ens.ok h

theorem same_insertChars {l : List Nat} : Ens (Same s) (insertChars l s) := by
  induction l generalizing s with
  | nil => exact Ens.ok (Same.refl _)
  | cons c l ih => exact Ens.bind same_insertChar fun _ h => ih.mono fun _ h' => h.trans h'

theorem same_innerLoop {b : Nat} {l : List Entry} {i last : Nat} {bm : Bookmark} :
    Ens (fun r => Same s r.2.2) (innerLoop b l i last bm s) := by
  induction l generalizing i last bm s with
  | nil => exact Ens.ok (Same.refl _)
  | cons e l ih =>
    unfold innerLoop
    dsimp only [create]
    have h0 : ∀ c : Bool, Same s (if c = true then { s with fmt := dropFmt e.node s.fmt } else s) := by
      intro c; cases c <;> exact ⟨rfl, rfl, rfl⟩
    refine Ens.ite (fun _ => ?_) fun _ => ?_
    · exact Ens.bind (Q := fun _ => True) Ens.triv fun _ _ => ih.mono fun _ h' => Same.trans (h0 _) h'
    · exact Ens.bind same_removeNode fun _ h => ih.mono fun _ h' => Same.trans (Same.trans (h0 _) h) h'

theorem same_adopt {fe fb : Entry} : Ens (Same s) (adopt s fe fb) := by
  unfold adopt
  split
  · refine Ens.bind same_innerLoop fun r h => ?_
    refine Ens.bind (Q := fun _ => True) Ens.triv fun _ _ => ?_
    refine Ens.bind (Q := fun _ => True) Ens.triv fun _ _ => ?_
    refine Ens.bind (Q := fun _ => True) Ens.triv fun _ _ => ?_
    refine Ens.bind (Q := fun _ => True) Ens.triv fun _ _ => ?_
    refine Ens.bind (Q := fun _ => True) Ens.triv fun _ _ => ?_
    refine Ens.bind same_removeNode fun _ h' => ?_
    exact Ens.bind (Q := fun _ => True) Ens.triv fun _ _ => Ens.ok (Same.trans h h')
  · exact Ens.err

theorem same_outerLoop {t : Tag} {k : Nat} : Ens (fun r => Same s r.2) (outerLoop t k s) := by
  induction k generalizing s with
  | zero => exact Ens.ok (Same.refl _)
  | succ k ih =>
    unfold outerLoop
    split
    · exact Ens.ok (Same.refl _)
    · refine Ens.ite (fun _ => Ens.ok ⟨rfl, rfl, rfl⟩) fun _ => ?_
      refine Ens.bind (Q := fun _ => True) Ens.triv fun _ _ => Ens.ite (fun _ => ?_) fun _ => Ens.ok (Same.refl _)
      refine Ens.bind (Q := fun _ => True) Ens.triv fun _ _ => ?_
      split
      · exact Ens.ok ⟨rfl, rfl, rfl⟩
      · exact Ens.bind same_adopt fun _ h => ih.mono fun _ h' => h.trans h'

theorem same_adoption {t : Tag} : Ens (fun r => Same s r.2) (adoption s t) := by
  refine Ens.bind (Q := fun _ => True) Ens.triv fun _ _ => Ens.ite (fun _ => ?_) fun _ => same_outerLoop
  exact Ens.bind same_pop fun _ h => Ens.ok h

/-! ## The invariant -/

/-- The remembered modes are none of the two that are only passed through. -/
def K1 (s : S) : Prop := (s.orig ≠ .text ∧ s.orig ≠ .inTableText) ∧ ∀ m ∈ s.tmpl, m ≠ .text ∧ m ≠ .inTableText

/-- The mode is none of the two. -/
def PM (s : S) : Prop := s.mode ≠ .text ∧ s.mode ≠ .inTableText

/-- Both. -/
def Q2 (s : S) : Prop := K1 s ∧ PM s

theorem sk {s : S} {r : R S} (h : Ens (Same s) r) (k : K1 s) : Ens K1 r := by
  intro s' hs
  obtain ⟨h1, h2, _⟩ := h s' hs
  unfold K1
  rw [h1, h2]
  exact k

theorem sq {s : S} {r : R S} (h : Ens (Same s) r) (k : K1 s) (p : PM s) : Ens Q2 r := by
  intro s' hs
  refine ⟨sk h k s' hs, ?_⟩
  unfold PM
  rw [(h s' hs).2.2]
  exact p

theorem sp {s : S} {r : R (Bool × S)} (h : Ens (fun r => Same s r.2) r) (k : K1 s) (p : PM s) : Ens (fun r => Q2 r.2) r := by
  intro s' hs
  obtain ⟨h1, h2, h3⟩ := h s' hs
  refine ⟨?_, ?_⟩
  · unfold K1
    rw [h1, h2]
    exact k
  · unfold PM
    rw [h3]
    exact p

theorem bindQ {α : Type} {P : α → Prop} {x : R S} {f : S → R α} (hx : Ens Q2 x) (hf : ∀ s, K1 s → PM s → Ens P (f s)) :
    Ens P (x >>= f) := Ens.bind hx fun _ h => hf _ h.1 h.2

theorem bindP {α : Type} {P : α → Prop} {x : R (Bool × S)} {f : Bool × S → R α} (hx : Ens (fun r => Q2 r.2) x)
    (hf : ∀ r, K1 r.2 → PM r.2 → Ens P (f r)) : Ens P (x >>= f) := Ens.bind hx fun _ h => hf _ h.1 h.2

theorem kp_reset (k : K1 s) : Ens Q2 (reset s) := by
  intro s' h
  obtain ⟨m, rfl, hr⟩ := reset_ok h
  exact ⟨k, resetMode_ne k.2 hr⟩

theorem k_rawText {st : Sw} {t : Tag} {a : List At} (k : K1 s) (p : PM s) : Ens K1 (rawText s st t a) :=
  Ens.bind (sq same_insertHtml k p) fun _ h => Ens.ok ⟨h.2, h.1.2⟩

theorem k_insertHead {a : List At} (k : K1 s) : Ens K1 (insertHead s a) := by
  intro s' h
  obtain ⟨d, n, rfl⟩ := insertHead_ok h
  exact k

theorem k_insertRoot {a : List At} (k : K1 s) : Ens K1 (insertRoot s a) := by
  intro s' h
  obtain ⟨d, n, rfl⟩ := insertRoot_ok h
  exact k

theorem k_templateEnd (k : K1 s) : Ens K1 (templateEnd s) := by
  unfold templateEnd
  refine Ens.ite (fun _ => ?_) fun _ => Ens.ok k
  refine Ens.bind (Q := fun _ => True) Ens.triv fun _ _ => ?_
  dsimp only
  split
  · exact Ens.err
  · next m l hl =>
    refine Ens.mono (kp_reset ?_) fun _ h => h.1
    refine ⟨k.1, ?_⟩
    intro x hx
    refine k.2 x ?_
    have : s.tmpl = m :: l := hl
    rw [this]
    exact List.mem_cons_of_mem _ hx

theorem k_inHeadStart {t : Tag} {a : List At} (k : K1 s) (p : PM s) : Ens K1 (inHeadStart t a s) := by
  unfold inHeadStart
  refine Ens.ite (fun _ => sk same_insertPop k) fun _ => Ens.ite (fun _ => k_rawText k p) fun _ => Ens.ite (fun _ => k_rawText k p) fun _ =>
    Ens.ite (fun _ => k_rawText k p) fun _ => ?_
  refine Ens.bind (sq same_insertHtml k p) fun _ h => Ens.ok ⟨h.1.1, ?_⟩
  intro m hm
  rcases List.mem_cons.1 hm with rfl | hm
  · simp
  · exact h.1.2 m hm

theorem k_popNoscript (k : K1 s) : Ens K1 (popNoscript s) :=
  Ens.bind (Q := fun _ => True) Ens.triv fun _ _ => Ens.bind (sk same_pop k) fun _ h => Ens.bind (Q := fun _ => True) Ens.triv fun _ _ => Ens.ok h

theorem k_popRow (k : K1 s) : Ens K1 (popRow s) :=
  Ens.bind (sk same_backTo k) fun _ h => Ens.bind (Q := fun _ => True) Ens.triv fun _ _ => Ens.bind (sk same_pop h) fun _ h => Ens.ok h

theorem k_closeCaption (k : K1 s) : Ens K1 (closeCaption s) := Ens.bind (Q := fun _ => True) Ens.triv fun _ _ => Ens.ok k
theorem k_closeCell (k : K1 s) : Ens K1 (closeCell s) := Ens.bind (Q := fun _ => True) Ens.triv fun _ _ => Ens.ok k
theorem k_closeSelect (k : K1 s) : Ens K1 (closeSelect s) := (kp_reset (s := s.popUntil (·.is .select)) k).mono fun _ h => h.1

theorem bk_popNoscript {f : S → R S} (k : K1 s) (hf : ∀ s, K1 s → Ens K1 (f s)) : Ens K1 (popNoscript s >>= f) :=
  Ens.bind (k_popNoscript k) hf
theorem bk_popRow {f : S → R S} (k : K1 s) (hf : ∀ s, K1 s → Ens K1 (f s)) : Ens K1 (popRow s >>= f) :=
  Ens.bind (k_popRow k) hf
theorem bk_closeCaption {f : S → R S} (k : K1 s) (hf : ∀ s, K1 s → Ens K1 (f s)) : Ens K1 (closeCaption s >>= f) :=
  Ens.bind (k_closeCaption k) hf
theorem bk_closeCell {f : S → R S} (k : K1 s) (hf : ∀ s, K1 s → Ens K1 (f s)) : Ens K1 (closeCell s >>= f) :=
  Ens.bind (k_closeCell k) hf
theorem bk_closeSelect {f : S → R S} (k : K1 s) (hf : ∀ s, K1 s → Ens K1 (f s)) : Ens K1 (closeSelect s >>= f) :=
  Ens.bind (k_closeSelect k) hf
theorem bk_insertHead {a : List At} {f : S → R S} (k : K1 s) (hf : ∀ s, K1 s → Ens K1 (f s)) : Ens K1 (insertHead s a >>= f) :=
  Ens.bind (k_insertHead k) hf
theorem bk_insertRoot {a : List At} {f : S → R S} (k : K1 s) (hf : ∀ s, K1 s → Ens K1 (f s)) : Ens K1 (insertRoot s a >>= f) :=
  Ens.bind (k_insertRoot k) hf

/-- Reprocessing keeps the invariant. -/
def Pres (re : Re) : Prop := ∀ tok s, K1 s → Ens K1 (re tok s)

theorem pres {re : Re} {tok : Tok} (h : Pres re) (k : K1 s) : Ens K1 (re tok s) := h tok s k

theorem k1_ite {c : Prop} [Decidable c] {a b : S} (ha : K1 a) (hb : K1 b) : K1 (if c then a else b) := by
  split <;> assumption

theorem k_orig {s s' : S} (p : PM s) (k : K1 s) (h1 : s'.orig = s.mode) (h2 : s'.tmpl = s.tmpl) : K1 s' := by
  unfold K1
  rw [h1, h2]
  exact ⟨p, k.2⟩

theorem k_templateAs {re : Re} {tok : Tok} {m : Mode} (hre : Pres re) (hm : m ≠ .text ∧ m ≠ .inTableText) (k : K1 s) :
    Ens K1 (templateAs re m tok s) := by
  unfold templateAs
  split
  · exact Ens.err
  · next x l hl =>
    refine hre _ _ ⟨k.1, ?_⟩
    intro y hy
    rcases List.mem_cons.1 hy with rfl | hy
    · exact hm
    · exact k.2 y (hl ▸ List.mem_cons_of_mem _ hy)

theorem k_templateEof {re : Re} (hre : Pres re) (k : K1 s) : Ens K1 (templateEof re s) := by
  unfold templateEof
  refine Ens.ite (fun _ => ?_) fun _ => Ens.ok k
  dsimp only
  split
  · exact Ens.err
  · next m l hl =>
    refine Ens.bind (Q := Q2) (kp_reset ?_) fun _ h => hre _ _ h.1
    refine ⟨k.1, ?_⟩
    intro x hx
    refine k.2 x ?_
    have : s.tmpl = m :: l := hl
    rw [this]
    exact List.mem_cons_of_mem _ hx

/-- A step that keeps the modes. -/
macro "same_leaf" : tactic => `(tactic| first
  | with_reducible exact same_pop | with_reducible exact same_insertHtml | with_reducible exact same_insertForeign
  | with_reducible exact same_insertPop
  | with_reducible exact same_insertChar | with_reducible exact same_commentAt | with_reducible exact same_insertComment
  | with_reducible exact same_reconstruct
  | with_reducible exact same_removeNode | with_reducible exact same_backTo | with_reducible exact same_otherEnd
  | with_reducible exact same_ddLoop | with_reducible exact same_closeP | with_reducible exact same_closePIn
  | with_reducible exact same_htmlStart | with_reducible exact same_liStart | with_reducible exact same_insertFmtEl
  | with_reducible exact same_insertChars)

/-- Close goals about the state. -/
macro "k1" : tactic => `(tactic| first
  | with_reducible assumption
  | ((with_reducible refine k1_ite ?_ ?_) <;> assumption)
  | assumption
  | (refine And.intro ?_ ?_ <;> assumption)
  | exact k_orig (by with_reducible assumption) (by with_reducible assumption) rfl rfl
  | fail "k1")

/-- Close goals `Ens K1 _` and `Ens Q2 _`. -/
macro "ens" : tactic => `(tactic| repeat' first
  | with_reducible exact Ens.err
  | with_reducible assumption
  | ((with_reducible refine pres (by with_reducible assumption) ?_); k1)
  | exact sk (by same_leaf) (by assumption)
  | exact sq (by same_leaf) (by assumption) (by assumption)
  | exact sp (by with_reducible exact same_adoption) (by assumption) (by assumption)
  | ((with_reducible refine k_rawText ?_ ?_) <;> k1)
  | ((with_reducible refine k_insertHead ?_) <;> k1)
  | ((with_reducible refine k_insertRoot ?_) <;> k1)
  | ((with_reducible refine k_templateEnd ?_) <;> k1)
  | ((with_reducible refine k_inHeadStart ?_ ?_) <;> k1)
  | ((with_reducible refine k_popNoscript ?_) <;> k1)
  | ((with_reducible refine k_popRow ?_) <;> k1)
  | ((with_reducible refine k_closeCaption ?_) <;> k1)
  | ((with_reducible refine k_closeCell ?_) <;> k1)
  | ((with_reducible refine k_closeSelect ?_) <;> k1)
  | ((with_reducible refine Ens.ok ?_); k1)
  | ((with_reducible refine k_templateEof ?_ ?_) <;> k1)
  | ((with_reducible refine k_templateAs ?_ ?_ ?_) <;> first | k1 | decide)
  | ((with_reducible refine kp_reset ?_); k1)
  | with_reducible refine Ens.ite (fun _ => ?_) (fun _ => ?_)
  | ((with_reducible refine bk_popNoscript ?_ ?_); (· with_reducible assumption); intro _ _)
  | ((with_reducible refine bk_popRow ?_ ?_); (· with_reducible assumption); intro _ _)
  | ((with_reducible refine bk_closeCaption ?_ ?_); (· with_reducible assumption); intro _ _)
  | ((with_reducible refine bk_closeCell ?_ ?_); (· with_reducible assumption); intro _ _)
  | ((with_reducible refine bk_closeSelect ?_ ?_); (· with_reducible assumption); intro _ _)
  | ((with_reducible refine bk_insertHead ?_ ?_); (· with_reducible assumption); intro _ _)
  | ((with_reducible refine bk_insertRoot ?_ ?_); (· with_reducible assumption); intro _ _)
  | with_reducible refine bindQ ?_ (fun _ _ _ => ?_)
  | with_reducible refine bindP ?_ (fun _ _ _ => ?_)
  | with_reducible refine Ens.bind (Q := fun _ => True) Ens.triv (fun _ _ => ?_)
  | split)

theorem k_bodyStart2 {re : Re} (hre : Pres re) {t : Tag} {a : List At} {f : Bool} (k : K1 s) (p : PM s) : Ens K1 (bodyStart2 re t a f s) := by
  unfold bodyStart2
  ens

theorem k_bodyStart {re : Re} (hre : Pres re) {t : Tag} {a : List At} {f : Bool} (k : K1 s) (p : PM s) : Ens K1 (bodyStart re t a f s) := by
  have hb : ∀ s, K1 s → PM s → Ens K1 (bodyStart2 re t a f s) := fun s => k_bodyStart2 hre
  unfold bodyStart
  ens
  all_goals (apply hb <;> assumption)

theorem k_bodyEnd {re : Re} (hre : Pres re) {t : Tag} (k : K1 s) (p : PM s) : Ens K1 (bodyEnd re t s) := by
  unfold bodyEnd
  ens

theorem k_onInBody {re : Re} (hre : Pres re) {tok : Tok} (k : K1 s) (p : PM s) : Ens K1 (onInBody re tok s) := by
  have hb : ∀ t a f, Ens K1 (bodyStart re t a f s) := fun t a f => k_bodyStart hre k p
  have he : ∀ t, Ens K1 (bodyEnd re t s) := fun t => k_bodyEnd hre k p
  unfold onInBody
  ens
  · exact hb _ _ _
  · exact he _

theorem k_inTableElse {re : Re} (hre : Pres re) {tok : Tok} (k : K1 s) (p : PM s) : Ens K1 (inTableElse re tok s) :=
  Ens.bind (k_onInBody (s := { s with foster := true }) hre k p) fun _ h => Ens.ok h

theorem k_tableStart {re : Re} (hre : Pres re) {t : Tag} {a : List At} {f : Bool} (k : K1 s) (p : PM s) : Ens K1 (tableStart re t a f s) := by
  have hb := k_inTableElse hre (tok := .start t a f) k p
  unfold tableStart
  ens

theorem k_onInTable {re : Re} (hre : Pres re) {tok : Tok} (k : K1 s) (p : PM s) : Ens K1 (onInTable re tok s) := by
  have hb : ∀ t a f, Ens K1 (tableStart re t a f s) := fun t a f => k_tableStart hre k p
  have he : ∀ tok s, K1 s → PM s → Ens K1 (inTableElse re tok s) := fun _ _ => k_inTableElse hre
  have hi := k_onInBody hre (tok := tok) k p
  unfold onInTable
  ens
  all_goals first | exact hb _ _ _ | exact he _ _ (by assumption) (by assumption) | exact hi

theorem k_onInHead {re : Re} (hre : Pres re) {tok : Tok} (k : K1 s) (p : PM s) : Ens K1 (onInHead re tok s) := by
  have hi := k_onInBody hre (tok := tok) k p
  unfold onInHead inHeadElse
  ens

theorem k_onInHeadNoscript {re : Re} (hre : Pres re) {tok : Tok} (k : K1 s) (p : PM s) : Ens K1 (onInHeadNoscript re tok s) := by
  have hi := k_onInHead hre (tok := tok) k p
  unfold onInHeadNoscript noscriptElse
  ens

theorem k_onInCaption {re : Re} (hre : Pres re) {tok : Tok} (k : K1 s) (p : PM s) : Ens K1 (onInCaption re tok s) := by
  have hi := k_onInBody hre (tok := tok) k p
  unfold onInCaption captionElse
  ens

theorem k_onInColumnGroup {re : Re} (hre : Pres re) {tok : Tok} (k : K1 s) (p : PM s) : Ens K1 (onInColumnGroup re tok s) := by
  have hi := k_onInBody hre (tok := tok) k p
  unfold onInColumnGroup colgroupElse
  ens

theorem k_onInTableBody {re : Re} (hre : Pres re) {tok : Tok} (k : K1 s) (p : PM s) : Ens K1 (onInTableBody re tok s) := by
  have hi := k_onInTable hre (tok := tok) k p
  unfold onInTableBody leaveBody
  ens

theorem k_onInRow {re : Re} (hre : Pres re) {tok : Tok} (k : K1 s) (p : PM s) : Ens K1 (onInRow re tok s) := by
  have hi := k_onInTable hre (tok := tok) k p
  unfold onInRow leaveRow
  ens

theorem k_onInCell {re : Re} (hre : Pres re) {tok : Tok} (k : K1 s) (p : PM s) : Ens K1 (onInCell re tok s) := by
  have hi := k_onInBody hre (tok := tok) k p
  unfold onInCell
  ens

theorem k_onInSelect {re : Re} (hre : Pres re) {tok : Tok} (k : K1 s) (p : PM s) : Ens K1 (onInSelect re tok s) := by
  have hi := k_onInBody hre (tok := tok) k p
  unfold onInSelect selectStart selectEnd
  ens

theorem k_onInSelectInTable {re : Re} (hre : Pres re) {tok : Tok} (k : K1 s) (p : PM s) : Ens K1 (onInSelectInTable re tok s) := by
  have hi := k_onInSelect hre (tok := tok) k p
  unfold onInSelectInTable
  ens

theorem k_onInTemplate {re : Re} (hre : Pres re) {tok : Tok} (k : K1 s) (p : PM s) : Ens K1 (onInTemplate re tok s) := by
  have hi := k_onInBody hre (tok := tok) k p
  unfold onInTemplate
  ens

theorem k_onAfterBody {re : Re} (hre : Pres re) {tok : Tok} (k : K1 s) (p : PM s) : Ens K1 (onAfterBody re tok s) := by
  have hi := k_onInBody hre (tok := tok) k p
  unfold onAfterBody
  ens

theorem k_onAfterAfterBody {re : Re} (hre : Pres re) {tok : Tok} (k : K1 s) (p : PM s) : Ens K1 (onAfterAfterBody re tok s) := by
  have hi := k_onInBody hre (tok := tok) k p
  unfold onAfterAfterBody
  ens

theorem k_onAfterAfterFrameset {re : Re} (hre : Pres re) {tok : Tok} (k : K1 s) (p : PM s) : Ens K1 (onAfterAfterFrameset re tok s) := by
  have hi := k_onInBody hre (tok := tok) k p
  unfold onAfterAfterFrameset
  ens

theorem k_onBeforeHead {re : Re} (hre : Pres re) {tok : Tok} (k : K1 s) (p : PM s) : Ens K1 (onBeforeHead re tok s) := by
  have hi := k_onInBody hre (tok := tok) k p
  unfold onBeforeHead beforeHeadElse
  ens

theorem k_onBeforeHtml {re : Re} (hre : Pres re) {tok : Tok} (k : K1 s) (p : PM s) : Ens K1 (onBeforeHtml re tok s) := by
  have hi := k_onInBody hre (tok := tok) k p
  unfold onBeforeHtml beforeHtmlElse
  ens

theorem k_onAfterHead {re : Re} (hre : Pres re) {tok : Tok} (k : K1 s) (p : PM s) : Ens K1 (onAfterHead re tok s) := by
  have hb : ∀ t a h, Ens K1 (inHeadStart t a { s with stack := ⟨h, .html, .k .head, []⟩ :: s.stack }) := fun _ _ _ => k_inHeadStart k p
  unfold onAfterHead afterHeadElse
  split
  · exact Ens.ite (fun _ => sk same_insertChar k) fun _ => Ens.bind (sk same_insertHtml k) fun _ h => hre _ _ h
  · exact sk same_insertComment k
  · exact Ens.ok k
  · refine Ens.ite (fun _ => sk same_htmlStart k) fun _ => Ens.ite (fun _ => Ens.bind (sk same_insertHtml k) fun _ h => Ens.ok h) fun _ =>
      Ens.ite (fun _ => Ens.bind (sk same_insertHtml k) fun _ h => Ens.ok h) fun _ => Ens.ite (fun _ => ?_) fun _ =>
      Ens.ite (fun _ => Ens.ok k) fun _ => Ens.bind (sk same_insertHtml k) fun _ h => hre _ _ h
    split
    · exact Ens.err
    · exact Ens.bind (hb _ _ _) fun _ h => Ens.ok h
  · exact Ens.ite (fun _ => k_templateEnd k) fun _ => Ens.ite (fun _ => Ens.bind (sk same_insertHtml k) fun _ h => hre _ _ h) fun _ => Ens.ok k
  · exact Ens.bind (sk same_insertHtml k) fun _ h => hre _ _ h

theorem k_onInitial {tbl : List Nat → Bool} {re : Re} (hre : Pres re) {tok : Tok} (k : K1 s) : Ens K1 (onInitial tbl re tok s) := by
  unfold onInitial initialElse
  ens

theorem k_onInFrameset {tok : Tok} (k : K1 s) (p : PM s) : Ens K1 (onInFrameset tok s) := by
  unfold onInFrameset
  ens

theorem k_onAfterFrameset {tok : Tok} (k : K1 s) (p : PM s) : Ens K1 (onAfterFrameset tok s) := by
  unfold onAfterFrameset
  ens

theorem k_onText {re : Re} (hre : Pres re) {tok : Tok} (k : K1 s) : Ens K1 (onText re tok s) := by
  unfold onText
  split
  · exact sk same_insertChar k
  · exact Ens.bind (Q := fun _ => True) Ens.triv fun _ _ => Ens.bind (sk same_pop k) fun _ h => hre _ _ h
  · exact Ens.bind (sk same_pop k) fun _ h => Ens.ok h
  · exact Ens.ok k

theorem same_fosterChars {re : Re} {l : List Nat} : Ens (Same s) (fosterChars re l s) := by
  induction l generalizing s with
  | nil => exact Ens.ok (Same.refl _)
  | cons c l ih =>
    refine Ens.bind (Q := Same s) (Ens.bind (Q := Same s) ?_ fun _ h => Ens.ok h) fun _ h => ih.mono fun _ h' => h.trans h'
    unfold onInBody
    dsimp only
    split
    · exact Ens.ok ⟨rfl, rfl, rfl⟩
    refine Ens.bind same_reconstruct fun _ h => Ens.bind same_insertChar fun _ h' => Ens.ok ?_
    have h2 := Same.trans h h'
    split <;> exact h2

theorem k_onInTableText {re : Re} (hre : Pres re) {tok : Tok} (k : K1 s) : Ens K1 (onInTableText re tok s) := by
  unfold onInTableText
  split
  · exact Ens.ite (fun _ => Ens.ok k) fun _ => Ens.ok k
  · dsimp only
    split
    · exact Ens.bind (sk same_fosterChars k) fun _ h => hre _ _ h
    · exact Ens.bind (sk same_insertChars k) fun _ h => hre _ _ h

theorem k_byMode {tbl : List Nat → Bool} {re : Re} (hre : Pres re) {tok : Tok} (k : K1 s) : Ens K1 (byMode tbl re tok s) := by
  unfold byMode
  split <;> rename_i hm
  · exact k_onInitial hre k
  all_goals first
    | exact k_onText hre k
    | exact k_onInTableText hre k
    | exact k_onBeforeHtml hre k (by unfold PM; simp [hm])
    | exact k_onBeforeHead hre k (by unfold PM; simp [hm])
    | exact k_onInHead hre k (by unfold PM; simp [hm])
    | exact k_onInHeadNoscript hre k (by unfold PM; simp [hm])
    | exact k_onAfterHead hre k (by unfold PM; simp [hm])
    | exact k_onInBody hre k (by unfold PM; simp [hm])
    | exact k_onInTable hre k (by unfold PM; simp [hm])
    | exact k_onInCaption hre k (by unfold PM; simp [hm])
    | exact k_onInColumnGroup hre k (by unfold PM; simp [hm])
    | exact k_onInTableBody hre k (by unfold PM; simp [hm])
    | exact k_onInRow hre k (by unfold PM; simp [hm])
    | exact k_onInCell hre k (by unfold PM; simp [hm])
    | exact k_onInSelect hre k (by unfold PM; simp [hm])
    | exact k_onInSelectInTable hre k (by unfold PM; simp [hm])
    | exact k_onInTemplate hre k (by unfold PM; simp [hm])
    | exact k_onAfterBody hre k (by unfold PM; simp [hm])
    | exact k_onInFrameset k (by unfold PM; simp [hm])
    | exact k_onAfterFrameset k (by unfold PM; simp [hm])
    | exact k_onAfterAfterBody hre k (by unfold PM; simp [hm])
    | exact k_onAfterAfterFrameset hre k (by unfold PM; simp [hm])

theorem k_onForeign {tbl : List Nat → Bool} {re : Re} (hre : Pres re) {tok : Tok} (k : K1 s) : Ens K1 (onForeign tbl re tok s) := by
  unfold onForeign
  split
  · refine Ens.ite (fun _ => sk same_insertChar k) fun _ => Ens.bind (sk same_insertChar k) fun _ h => Ens.ok ?_
    split <;> exact h
  · exact sk same_insertComment k
  · exact Ens.ok k
  · unfold foreignStart
    refine Ens.ite (fun _ => ?_) fun _ => ?_
    · exact Ens.bind (sk same_pop k) fun _ h => Ens.bind (Q := fun _ => True) Ens.triv fun _ _ => hre _ _ h
    · refine Ens.bind (Q := fun _ => True) Ens.triv fun _ _ => ?_
      exact Ens.bind (sk same_insertForeign k) fun _ h => Ens.ite (fun _ => sk same_pop h) fun _ => Ens.ok h
  · unfold foreignEnd
    refine Ens.bind (Q := fun _ => True) Ens.triv fun _ _ => Ens.ite (fun _ => sk same_pop k) fun _ => ?_
    split
    · exact Ens.ok k
    · exact Ens.ok k
    · exact k_byMode hre k
  · exact Ens.err

theorem k_process {tbl : List Nat → Bool} {n : Nat} : Pres (process tbl n) := by
  induction n with
  | zero => exact fun _ _ _ => Ens.err
  | succ n ih =>
    intro tok s k
    unfold process
    refine Ens.ite (fun _ => Ens.ok k) fun _ => ?_
    unfold step
    split
    · exact k_byMode ih k
    · exact Ens.ite (fun _ => k_byMode ih k) fun _ => k_onForeign ih k

theorem nf_emit {tbl : List Nat → Bool} {tok : Tok} (k : K1 s) : NF (emit tbl tok s) :=
  nf_process (s := { s with switch := none }) tok ⟨k.1, k.2⟩ (Nat.le_refl _)

theorem k_emit {tbl : List Nat → Bool} {tok : Tok} (k : K1 s) : Ens K1 (emit tbl tok s) := k_process _ _ k

theorem nf_emits {tbl : List Nat → Bool} {l : List Tok} (k : K1 s) : NF (emits tbl l s) := by
  induction l generalizing s with
  | nil => exact NF.ok _
  | cons tok l ih => exact NF.bind (nf_emit k) fun s' h => ih (k_emit k s' h)

theorem k_init : K1 init := ⟨by decide, fun m hm => absurd hm (by simp [init])⟩

end Verif.Proof.HtmlTree
