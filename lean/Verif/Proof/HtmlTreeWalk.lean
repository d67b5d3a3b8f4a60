import Verif.Proof.HtmlTreeKept
/- What the steps that change the tree keep, tree construction keeps. -/
namespace Verif.Proof.HtmlTree.Walk
open Verif.Model.HtmlTree

/-- The modes before there is an element. -/
def early : List Mode := [.initial, .beforeHtml]

/-- The modes that return to another one. -/
def pass : List Mode := [.text, .inTableText]

/-- The modes are later ones. -/
def M (s : S) : Prop := s.mode ∉ early ∧ (s.mode ∈ pass → s.orig ∉ early) ∧ ∀ m ∈ s.tmpl, m ∉ early ∧ m ∉ pass

/-- What is said about tree, stack, list, head element and slots. -/
abbrev Pred := Dom → List Entry → List Fmt → Option Nat → List (List Nat) → Prop

/-- The same for a state. -/
def Pred.at (H : Pred) (s : S) : Prop := H s.dom s.stack s.fmt s.head s.slots

/-- Both. -/
def G (H : Pred) (s : S) : Prop := M s ∧ H.at s

/-- A state before there is an element. -/
def Pre (A : Dom → Prop) (s : S) : Prop := A s.dom ∧ s.stack = [] ∧ s.fmt = [] ∧ s.head = none ∧ s.slots = [] ∧ s.tmpl = []

/-- The names of elements that are implied. -/
def implieds : List K := [.html, .head, .body, .p, .colgroup, .tbody, .tr, .br]

/-- The steps keep `H`, for start tags `T`; `A` and `B` hold before there is an element, before and behind the document type. -/
structure Closed (T : Tag → List At → Prop) (A B : Dom → Prop) (H : Pred) : Prop where
  implied : ∀ k ∈ implieds, T (.k k) []
  image : ∀ a, T (.k .image) a → T (.k .img) a
  init : A init.dom
  weak : ∀ d, A d → B d
  commentA : ∀ s t, A s.dom → Ens (fun s' => A s'.dom) (commentAt s (.last 0) t)
  commentB : ∀ s t, B s.dom → Ens (fun s' => B s'.dom) (commentAt s (.last 0) t)
  doctype : ∀ d x y z, A d → Ens B (link (d ++ [⟨.doctype x y z, none, []⟩]) (.last 0) d.length)
  root : ∀ s a, Pre B s → T (.k .html) a → Ens H.at (insertRoot s a)
  sub : ∀ {d st f h sl st' f'}, H d st f h sl → st'.Sublist st → (∀ x ∈ f', x = .marker ∨ x ∈ f) → H d st' f' h sl
  pushHead : ∀ {d st f h sl}, H d st f (some h) sl → H d (⟨h, .html, .k .head, []⟩ :: st) f (some h) sl
  insert : ∀ s t a, H.at s → T t a → Ens H.at (insertForeign s .html t a)
  head : ∀ s a, H.at s → T (.k .head) a → Ens H.at (insertHead s a)
  fmtEl : ∀ s t a, H.at s → T t a → Ens H.at (insertFmtEl s t a)
  reconstruct : ∀ s, H.at s → Ens H.at (reconstruct s)
  adoption : ∀ s t, H.at s → Ens (fun r => H.at r.2) (adoption s t)
  char : ∀ s c, H.at s → Ens H.at (insertChar s c)
  comment : ∀ s t, H.at s → Ens H.at (insertComment s t)
  commentTop : ∀ s t, H.at s → Ens H.at (commentAt s (.last 0) t)
  commentAt : ∀ s e t, H.at s → e ∈ s.stack → Ens H.at (commentAt s (.last e.node) t)
  merge : ∀ {d st f h sl e t a}, H d st f h sl → e ∈ st → T t a → H (mergeAttrs d e.node a) st f h sl
  svg : ∀ s t a ns, H.at s → T t a → t.mem [.math, .svg] = true → ns ≠ .html →
    Ens H.at (insertForeign (keepSlots s (adjustForeign (adjustMath a))) ns t (adjustForeign (adjustMath a)))
  foreign : ∀ s e l t a a', H.at s → T t a → s.stack = e :: l → e.ns ≠ .html → a' = a ∨ a' = adjustMath a ∨ a' = adjustSvg a →
    Ens H.at (insertForeign (keepSlots s (adjustForeign a')) e.ns t (adjustForeign a'))


variable {T : Tag → List At → Prop} {A B : Dom → Prop} {H : Pred} {s : S} {re : Re}

/-- The start tags are those. -/
def Fits (T : Tag → List At → Prop) : Tok → Prop
  | .start t a _ => T t a
  | _ => True

/-- Reprocessing keeps it. -/
def Keep (T : Tag → List At → Prop) (H : Pred) (re : Re) : Prop := ∀ tok s, Fits T tok → G H s → Ens (G H) (re tok s)

theorem keep {tok : Tok} (h : Keep T H re) (ht : Fits T tok) (g : G H s) : Ens (G H) (re tok s) := h tok s ht g

/-! The modes. -/

theorem M.same {s' : S} (m : M s) (h : Same s s') : M s' := by
  unfold M
  rw [h.1, h.2.1, h.2.2]
  exact m

theorem M.to {s' : S} {x : Mode} (m : M s) (h1 : s'.mode = x) (h2 : s'.tmpl = s.tmpl) (hx : x ∉ early ∧ x ∉ pass) : M s' := by
  unfold M
  rw [h1, h2]
  exact ⟨hx.1, fun h => absurd h hx.2, m.2.2⟩

theorem M.enter {s' : S} {x : Mode} (m : M s) (h1 : s'.mode = x) (h2 : s'.tmpl = s.tmpl) (h3 : s'.orig = s.mode) (hx : x ∉ early) : M s' := by
  unfold M
  rw [h1, h2, h3]
  exact ⟨hx, fun _ => m.1, m.2.2⟩

theorem M.back {s' : S} (m : M s) (hm : s.mode ∈ pass) (h1 : s'.mode = s.orig) (h2 : s'.tmpl = s.tmpl) (h3 : s'.orig = s.orig) : M s' := by
  unfold M
  rw [h1, h2, h3]
  exact ⟨m.2.1 hm, fun _ => m.2.1 hm, m.2.2⟩

theorem M.tmpl {s' : S} {x : Mode} (m : M s) (h1 : s'.mode = x) (h2 : s'.tmpl = x :: s.tmpl) (hx : x ∉ early ∧ x ∉ Walk.pass) : M s' := by
  unfold M
  rw [h1, h2]
  refine ⟨hx.1, fun h => absurd h hx.2, ?_⟩
  intro y hy
  rcases List.mem_cons.mp hy with rfl | hy
  · exact hx
  · exact m.2.2 y hy

theorem resetSelect_ne : ∀ l, resetSelect l ∉ early ∧ resetSelect l ∉ pass
  | [] => by decide
  | e :: l => by
    unfold resetSelect
    split
    · decide
    · split
      · decide
      · exact resetSelect_ne l

theorem resetMode_late {h : Option Nat} {t : List Mode} {l : List Entry} {m : Mode} (ht : ∀ m ∈ t, m ∉ early ∧ m ∉ pass)
    (hr : resetMode h t l = .ok m) : m ∉ early ∧ m ∉ pass := by
  refine Ens.get (P := fun m => m ∉ early ∧ m ∉ pass) ?_ hr
  clear hr
  induction l with
  | nil => exact Ens.err
  | cons e l ih =>
    unfold resetMode
    repeat' refine Ens.ite (fun _ => ?_) (fun _ => ?_)
    case cons.refine_1 => exact Ens.ok (by split_ifs <;> first | exact resetSelect_ne l | decide)
    all_goals first
      | exact ih
      | exact Ens.ok (by decide)
      | exact Ens.ok (by split_ifs <;> decide)
      | (split; exact Ens.err; exact Ens.ok (ht _ (by simp)))

theorem g_reset (m : ∀ x ∈ s.tmpl, x ∉ early ∧ x ∉ pass) (h : H.at s) : Ens (G H) (reset s) := by
  intro s' e
  obtain ⟨x, rfl, hr⟩ := reset_ok e
  have := resetMode_late m hr
  exact ⟨⟨this.1, fun hh => absurd hh this.2, m⟩, h⟩

/-! Steps. -/

theorem of_same {r : R S} (m : M s) (h1 : Ens (Same s) r) (h2 : Ens H.at r) : Ens (G H) r :=
  fun s' h => ⟨m.same (h1 s' h), h2 s' h⟩

theorem popUntil_sub {p : Entry → Bool} : ∀ {l : List Entry}, (popUntil p l).Sublist l
  | [] => List.Sublist.refl _
  | x :: l => by
    unfold popUntil
    split
    · exact List.sublist_cons_self _ _
    · exact popUntil_sub.cons _

theorem popUntil_mem {p : Entry → Bool} {l : List Entry} {e : Entry} (h : e ∈ popUntil p l) : e ∈ l := popUntil_sub.subset h

theorem implied_sub {p : Entry → Bool} : ∀ {l : List Entry}, (implied p l).Sublist l
  | [] => List.Sublist.refl _
  | x :: l => by
    unfold implied
    split
    · exact List.Sublist.refl _
    · split
      · exact implied_sub.cons _
      · exact List.Sublist.refl _

theorem impliedAll_sub : ∀ {l : List Entry}, (impliedAll l).Sublist l
  | [] => List.Sublist.refl _
  | x :: l => by
    unfold impliedAll
    split
    · exact impliedAll_sub.cons _
    · exact List.Sublist.refl _

theorem toTable_sub : ∀ {l : List Entry}, (toTable l).Sublist l
  | [] => List.Sublist.refl _
  | x :: l => by
    unfold toTable
    split
    · exact List.Sublist.refl _
    · split
      · exact List.Sublist.refl _
      · exact toTable_sub.cons _

theorem clear_mem : ∀ {l : List Fmt} {x : Fmt}, x ∈ clearMarker l → x ∈ l
  | .marker :: l, x, h => List.mem_cons_of_mem _ h
  | .el _ :: l, x, h => List.mem_cons_of_mem _ (clear_mem (l := l) h)

theorem backTo_sub {c : List K} : ∀ {l l' : List Entry}, backTo c l = .ok l' → l'.Sublist l
  | [], _, h => by simp [backTo] at h
  | x :: l, l', h => by
    unfold backTo at h
    split at h
    · cases h; exact List.Sublist.refl _
    · exact (backTo_sub h).cons _

theorem popToHtml_sub : ∀ {l l' : List Entry}, popToHtml l = .ok l' → l'.Sublist l
  | [], _, h => by simp [popToHtml] at h
  | x :: l, l', h => by
    unfold popToHtml at h
    split at h
    · cases h; exact List.Sublist.refl _
    · exact (popToHtml_sub h).cons _

theorem popForeign_sub : ∀ {l l' : List Entry}, popForeign l = .ok l' → l'.Sublist l
  | [], _, h => by simp [popForeign] at h
  | [_], _, h => by simp [popForeign] at h
  | x :: y :: l, l', h => by
    unfold popForeign at h
    split at h
    · cases h; exact List.sublist_cons_self _ _
    · exact (popForeign_sub h).cons _

variable (cl : Closed T A B H)
include cl

/-- The stack and the list have only lost. -/
theorem less {s' : S} (h : H.at s) (hd : s'.dom = s.dom) (hh : s'.head = s.head) (hl : s'.slots = s.slots) (hst : s'.stack.Sublist s.stack)
    (hf : ∀ x ∈ s'.fmt, x = .marker ∨ x ∈ s.fmt) : H.at s' := by
  unfold Pred.at
  rw [hd, hh, hl]
  exact cl.sub h hst hf

theorem g_less {s' : S} (g : G H s) (hs : Same s s') (hd : s'.dom = s.dom) (hh : s'.head = s.head) (hl : s'.slots = s.slots)
    (hst : s'.stack.Sublist s.stack) (hf : ∀ x ∈ s'.fmt, x = .marker ∨ x ∈ s.fmt) : G H s' := ⟨g.1.same hs, less cl g.2 hd hh hl hst hf⟩

theorem g_stack {st : List Entry} (g : G H s) (hst : st.Sublist s.stack) : G H { s with stack := st } :=
  g_less cl g ⟨rfl, rfl, rfl⟩ rfl rfl rfl hst fun _ h => .inr h

theorem g_fmt {f : List Fmt} (g : G H s) (hf : ∀ x ∈ f, x = .marker ∨ x ∈ s.fmt) : G H { s with fmt := f } :=
  g_less cl g ⟨rfl, rfl, rfl⟩ rfl rfl rfl (List.Sublist.refl _) hf

theorem g_popUntil {p : Entry → Bool} (g : G H s) : G H (s.popUntil p) := g_stack cl g popUntil_sub
theorem g_implied {p : Entry → Bool} (g : G H s) : G H (s.implied p) := g_stack cl g implied_sub
theorem g_toTable (g : G H s) : G H s.toTable := g_stack cl g toTable_sub
theorem g_clear (g : G H s) : G H s.clearFmt := g_fmt cl g fun _ h => .inr (clear_mem h)
theorem g_marker (g : G H s) : G H (pushMarker s) := g_fmt cl g fun _ h => List.mem_cons.mp h
theorem g_dropFmt {n : Nat} (g : G H s) : G H { s with fmt := dropFmt n s.fmt } := g_fmt cl g fun _ h => .inr (List.mem_of_mem_eraseP h)
theorem g_stop (g : G H s) : G H (stopParsing s) := g_stack cl g (List.nil_sublist _)

theorem g_pop (g : G H s) : Ens (G H) (pop s) := by
  unfold pop
  split
  · exact Ens.err
  · next hs => exact Ens.ok (g_stack cl g (by rw [hs]; exact List.sublist_cons_self _ _))

theorem g_insert {t : Tag} {a : List At} (g : G H s) (ht : T t a) : Ens (G H) (insertHtml s t a) :=
  of_same g.1 same_insertHtml (cl.insert s t a g.2 ht)

theorem g_insertPop {t : Tag} {a : List At} (g : G H s) (ht : T t a) : Ens (G H) (insertPop s t a) :=
  Ens.bind (g_insert cl g ht) fun _ h => g_pop cl h

theorem g_fmtEl {t : Tag} {a : List At} (g : G H s) (ht : T t a) : Ens (G H) (insertFmtEl s t a) :=
  of_same g.1 same_insertFmtEl (cl.fmtEl s t a g.2 ht)

theorem g_reconstruct (g : G H s) : Ens (G H) (reconstruct s) := of_same g.1 same_reconstruct (cl.reconstruct s g.2)

theorem g_adoption {t : Tag} (g : G H s) : Ens (fun r => G H r.2) (adoption s t) :=
  fun r h => ⟨g.1.same (same_adoption r h), cl.adoption s t g.2 r h⟩

theorem g_char {c : Nat} (g : G H s) : Ens (G H) (insertChar s c) := of_same g.1 same_insertChar (cl.char s c g.2)

theorem g_chars : ∀ {l : List Nat} {s : S}, G H s → Ens (G H) (insertChars l s)
  | [], _, g => Ens.ok g
  | _ :: _, _, g => Ens.bind (g_char cl g) fun _ h => g_chars h

theorem g_comment {t : List Nat} (g : G H s) : Ens (G H) (insertComment s t) := of_same g.1 same_insertComment (cl.comment s t g.2)

theorem g_commentTop {t : List Nat} (g : G H s) : Ens (G H) (commentAt s (.last 0) t) := of_same g.1 same_commentAt (cl.commentTop s t g.2)

theorem g_commentFront {t : List Nat} (g : G H s) : Ens (G H) (do let e ← front s; commentAt s (.last e.node) t) := by
  refine Ens.bind (Q := fun e => e ∈ s.stack) ?_ fun e he => of_same g.1 same_commentAt (cl.commentAt s e t g.2 he)
  intro e h
  unfold front at h
  split at h
  · cases h
  · next he =>
    cases h
    exact List.mem_of_getLast? he

theorem g_htmlStart {t : Tag} {a : List At} (g : G H s) (ht : T t a) : Ens (G H) (htmlStart s a) := by
  unfold htmlStart
  refine Ens.ite (fun _ => Ens.ok g) fun _ => Ens.bind (Q := fun e => e ∈ s.stack) ?_ fun e he => Ens.ok ⟨g.1, cl.merge g.2 he ht⟩
  intro e h
  unfold front at h
  split at h
  · cases h
  · next he =>
    cases h
    exact List.mem_of_getLast? he

theorem g_removeNode {n : Nat} (g : G H s) : Ens (G H) (removeNode s n) := by
  unfold removeNode
  exact Ens.ite (fun _ => Ens.ok (g_stack cl g List.eraseP_sublist)) fun _ => Ens.err

theorem g_backTo {c : List K} (g : G H s) : Ens (G H) (s.backTo c) := by
  unfold S.backTo
  refine Ens.bind (Q := fun l => l.Sublist s.stack) (fun l h => backTo_sub h) fun l hl => Ens.ok (g_stack cl g hl)

theorem g_otherEnd {t : Tag} {l : List Entry} (g : G H s) : Ens (G H) (otherEnd s t l) := by
  induction l with
  | nil => exact Ens.err
  | cons e l ih =>
    unfold otherEnd
    refine Ens.ite (fun _ => ?_) fun _ => Ens.ite (fun _ => Ens.ok g) fun _ => ih
    exact Ens.bind (Q := fun _ => True) Ens.triv fun _ _ => Ens.ok (g_popUntil cl (g_implied cl g))

theorem g_ddLoop {l : List Entry} (g : G H s) : Ens (G H) (ddLoop s l) := by
  induction l with
  | nil => exact Ens.err
  | cons e l ih =>
    unfold ddLoop
    refine Ens.ite (fun _ => ?_) fun _ => Ens.ite (fun _ => ?_) fun _ => Ens.ite (fun _ => Ens.ok g) fun _ => ih
    all_goals exact Ens.bind (Q := fun _ => True) Ens.triv fun _ _ => Ens.ok (g_popUntil cl (g_implied cl g))

theorem g_closeP (g : G H s) : Ens (G H) (closeP s) :=
  Ens.bind (Q := fun _ => True) Ens.triv fun _ _ => Ens.ok (g_popUntil cl (g_implied cl g))

theorem g_closePIn (g : G H s) : Ens (G H) (closePIn s) :=
  Ens.bind (Q := fun _ => True) Ens.triv fun _ _ => Ens.ite (fun _ => g_closeP cl g) fun _ => Ens.ok g

theorem g_liStart {t : Tag} {a : List At} (g : G H s) (ht : T t a) : Ens (G H) (liStart s t a) := by
  unfold liStart
  split
  · exact Ens.ok g
  · exact Ens.ite (fun _ => Ens.ok (g_popUntil cl (g_implied cl g))) fun _ => Ens.ite (fun _ => Ens.ok g) fun _ =>
      Ens.bind (g_closePIn cl g) fun _ h => g_insert cl h ht

theorem g_rawText {x : Sw} {t : Tag} {a : List At} (g : G H s) (ht : T t a) : Ens (G H) (rawText s x t a) :=
  Ens.bind (g_insert cl g ht) fun s' h => Ens.ok ⟨h.1.enter (x := .text) rfl rfl rfl (by decide), h.2⟩

theorem g_insertHead {a : List At} (g : G H s) (ht : T (.k .head) a) : Ens (G H) (insertHead s a) := by
  intro s' h
  refine ⟨?_, cl.head s a g.2 ht s' h⟩
  obtain ⟨d, n, rfl⟩ := insertHead_ok h
  exact g.1.to (x := .inHead) rfl rfl (by decide)

theorem g_templateEnd (g : G H s) : Ens (G H) (templateEnd s) := by
  unfold templateEnd
  refine Ens.ite (fun _ => ?_) fun _ => Ens.ok g
  refine Ens.bind (Q := fun _ => True) Ens.triv fun _ _ => ?_
  have g' : G H ((({ s with stack := impliedAll s.stack } : S).popUntil (·.is .template)).clearFmt) :=
    g_clear cl (g_popUntil cl (g_stack cl g impliedAll_sub))
  dsimp only
  split
  · exact Ens.err
  · next m l hl =>
    exact g_reset (fun x hx => g'.1.2.2 x (by rw [hl]; exact List.mem_cons_of_mem _ hx)) g'.2

theorem g_inHeadStart {t : Tag} {a : List At} (g : G H s) (ht : T t a) : Ens (G H) (inHeadStart t a s) := by
  unfold inHeadStart
  refine Ens.ite (fun _ => g_insertPop cl g ht) fun _ => Ens.ite (fun _ => g_rawText cl g ht) fun _ => Ens.ite (fun _ => g_rawText cl g ht) fun _ =>
    Ens.ite (fun _ => g_rawText cl g ht) fun _ => ?_
  exact Ens.bind (g_insert cl g ht) fun s' h => Ens.ok ⟨(g_marker cl h).1.tmpl (x := .inTemplate) rfl rfl (by decide), (g_marker cl h).2⟩

theorem g_to {m : Mode} (g : G H s) (hm : m ∉ early ∧ m ∉ pass) : G H (s.to m) := ⟨g.1.to rfl rfl hm, g.2⟩

theorem g_popNoscript (g : G H s) : Ens (G H) (popNoscript s) :=
  Ens.bind (Q := fun _ => True) Ens.triv fun _ _ => Ens.bind (g_pop cl g) fun _ h => Ens.bind (Q := fun _ => True) Ens.triv fun _ _ =>
    Ens.ok (g_to cl h (by decide))

theorem g_popRow (g : G H s) : Ens (G H) (popRow s) :=
  Ens.bind (g_backTo cl g) fun _ h => Ens.bind (Q := fun _ => True) Ens.triv fun _ _ => Ens.bind (g_pop cl h) fun _ h => Ens.ok (g_to cl h (by decide))

theorem g_closeCaption (g : G H s) : Ens (G H) (closeCaption s) :=
  Ens.bind (Q := fun _ => True) Ens.triv fun _ _ => Ens.ok (g_to cl (g_clear cl (g_popUntil cl (g_implied cl g))) (by decide))

theorem g_closeCell (g : G H s) : Ens (G H) (closeCell s) :=
  Ens.bind (Q := fun _ => True) Ens.triv fun _ _ => Ens.ok (g_to cl (g_clear cl (g_popUntil cl (g_implied cl g))) (by decide))

theorem g_reset' (g : G H s) : Ens (G H) (reset s) := g_reset g.1.2.2 g.2

theorem g_closeSelect (g : G H s) : Ens (G H) (closeSelect s) := g_reset' cl (g_popUntil cl g)

theorem g_templateEof (hre : Keep T H re) (g : G H s) : Ens (G H) (templateEof re s) := by
  unfold templateEof
  refine Ens.ite (fun _ => ?_) fun _ => Ens.ok (g_stop cl g)
  have g' : G H (s.popUntil (·.is .template)).clearFmt := g_clear cl (g_popUntil cl g)
  dsimp only
  split
  · exact Ens.err
  · next m l hl =>
    refine Ens.bind (g_reset (fun x hx => g'.1.2.2 x (by rw [hl]; exact List.mem_cons_of_mem _ hx)) g'.2) fun _ h => hre _ _ trivial h

theorem g_templateAs {tok : Tok} {m : Mode} (hre : Keep T H re) (hm : m ∉ early ∧ m ∉ pass) (ht : Fits T tok) (g : G H s) :
    Ens (G H) (templateAs re m tok s) := by
  unfold templateAs
  split
  · exact Ens.err
  · next x l hl =>
    refine hre _ _ ht ⟨⟨hm.1, fun h => absurd h hm.2, ?_⟩, g.2⟩
    intro y hy
    rcases List.mem_cons.1 hy with rfl | hy
    · exact hm
    · exact g.1.2.2 y (hl ▸ List.mem_cons_of_mem _ hy)

end Verif.Proof.HtmlTree.Walk
