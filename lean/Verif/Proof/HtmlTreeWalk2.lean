import Verif.Proof.HtmlTreeWalk
/- What the steps that change the tree keep, tree construction keeps: the insertion modes. -/
namespace Verif.Proof.HtmlTree.Walk
open Verif.Model.HtmlTree

variable {T : Tag → List At → Prop} {A B : Dom → Prop} {H : Pred} {s : S} {re : Re}

theorem bindG {x : R S} {f : S → R S} (hx : Ens (G H) x) (hf : ∀ s, G H s → Ens (G H) (f s)) : Ens (G H) (x >>= f) := Ens.bind hx fun _ h => hf _ h

theorem bindP {x : R (Bool × S)} {f : Bool × S → R S} (hx : Ens (fun r => G H r.2) x) (hf : ∀ r, G H r.2 → Ens (G H) (f r)) :
    Ens (G H) (x >>= f) := Ens.bind hx fun _ h => hf _ h

theorem g_ite {c : Prop} [Decidable c] {a b : S} (ha : G H a) (hb : G H b) : G H (if c then a else b) := by
  split <;> assumption

/-- The same but for what is not looked at. -/
theorem g_same {s' : S} (g : G H s) (h1 : s'.dom = s.dom) (h2 : s'.stack = s.stack) (h3 : s'.fmt = s.fmt) (h4 : s'.head = s.head)
    (h5 : s'.slots = s.slots) (m : M s') : G H s' := by
  refine ⟨m, ?_⟩
  unfold Pred.at
  rw [h1, h2, h3, h4, h5]
  exact g.2

theorem g_keep {doc : DocMode} {form : Option Nat} {ok foster lf : Bool} {pending : List Nat} {switch : Option Sw} (g : G H s) :
    G H ⟨s.dom, doc, s.mode, s.orig, s.tmpl, s.stack, s.fmt, s.head, form, ok, foster, lf, pending, switch, s.slots⟩ := g

theorem g_keepM {doc : DocMode} {form : Option Nat} {ok foster lf : Bool} {pending : List Nat} {switch : Option Sw} (g : G H s) (cl : Closed T A B H) :
    G H ⟨s.dom, doc, s.mode, s.orig, s.tmpl, s.stack, .marker :: s.fmt, s.head, form, ok, foster, lf, pending, switch, s.slots⟩ :=
  g_keep (g_marker cl g)

theorem g_mode {doc : DocMode} {x o : Mode} {form : Option Nat} {ok foster lf : Bool} {pending : List Nat} {switch : Option Sw} (g : G H s)
    (hx : x ∉ early ∧ x ∉ pass) :
    G H ⟨s.dom, doc, x, o, s.tmpl, s.stack, s.fmt, s.head, form, ok, foster, lf, pending, switch, s.slots⟩ := ⟨g.1.to rfl rfl hx, g.2⟩

theorem g_text {doc : DocMode} {x : Mode} {form : Option Nat} {ok foster lf : Bool} {pending : List Nat} {switch : Option Sw} (g : G H s)
    (hx : x ∉ early) :
    G H ⟨s.dom, doc, x, s.mode, s.tmpl, s.stack, s.fmt, s.head, form, ok, foster, lf, pending, switch, s.slots⟩ := ⟨g.1.enter rfl rfl rfl hx, g.2⟩

theorem mem_cur {e : Entry} (h : cur s = .ok e) : e ∈ s.stack := by
  unfold cur at h
  split at h
  · cases h
  · next hs => cases h; rw [hs]; simp

theorem second_mem {e : Entry} (h : second s = .ok (some e)) : e ∈ s.stack := by
  unfold second at h
  split at h
  · cases h
  · cases h
  · next hs =>
    cases h
    rw [← List.mem_reverse, hs]
    simp

/-- A state that is the same, or loses entries, or changes its mode. -/
macro "gs" : tactic => `(tactic| repeat' first
  | with_reducible assumption
  | with_reducible refine g_ite ?_ ?_
  | with_reducible refine g_to (by assumption) ?_ (by decide)
  | with_reducible refine g_popUntil (by assumption) ?_
  | with_reducible refine g_implied (by assumption) ?_
  | with_reducible refine g_toTable (by assumption) ?_
  | with_reducible refine g_clear (by assumption) ?_
  | with_reducible refine g_marker (by assumption) ?_
  | with_reducible refine g_dropFmt (by assumption) ?_
  | with_reducible refine g_stop (by assumption) ?_
  | ((with_reducible refine g_keep ?_); assumption; done)
  | ((with_reducible refine g_text ?_ ?_); assumption; decide; done)
  | ((with_reducible refine g_mode ?_ ?_); assumption; decide; done)
  | ((refine g_keepM ?_ (by with_reducible assumption)); assumption; done))

/-- A start tag. -/
macro "tg" : tactic => `(tactic| first
  | with_reducible assumption
  | trivial
  | exact Closed.implied (by assumption) _ (by decide)
  | fail "tg")

/-- Close goals `Ens (G H) _`. -/
macro "ens" : tactic => `(tactic| repeat' first
  | with_reducible exact Ens.err
  | with_reducible assumption
  | ((with_reducible refine keep (by with_reducible assumption) ?_ ?_) <;> first | tg | (gs; done))
  | ((with_reducible refine g_pop (by assumption) ?_); gs; done)
  | ((with_reducible refine g_insert (by assumption) ?_ ?_) <;> first | tg | (gs; done))
  | ((with_reducible refine g_insertPop (by assumption) ?_ ?_) <;> first | tg | (gs; done))
  | ((with_reducible refine g_fmtEl (by assumption) ?_ ?_) <;> first | tg | (gs; done))
  | ((with_reducible refine g_rawText (by assumption) ?_ ?_) <;> first | tg | (gs; done))
  | ((with_reducible refine g_liStart (by assumption) ?_ ?_) <;> first | tg | (gs; done))
  | ((with_reducible refine g_inHeadStart (by assumption) ?_ ?_) <;> first | tg | (gs; done))
  | ((with_reducible refine g_insertHead (by assumption) ?_ ?_) <;> first | tg | (gs; done))
  | ((with_reducible refine g_htmlStart (by assumption) ?_ (by with_reducible assumption)); gs; done)
  | ((with_reducible refine g_reconstruct (by assumption) ?_); gs; done)
  | ((with_reducible refine g_adoption (by assumption) ?_); gs; done)
  | ((with_reducible refine g_char (by assumption) ?_); gs; done)
  | ((with_reducible refine g_chars (by assumption) ?_); gs; done)
  | ((with_reducible refine g_comment (by assumption) ?_); gs; done)
  | ((with_reducible refine g_commentTop (by assumption) ?_); gs; done)
  | ((with_reducible refine g_commentFront (by assumption) ?_); gs; done)
  | ((with_reducible refine g_removeNode (by assumption) ?_); gs; done)
  | ((with_reducible refine g_backTo (by assumption) ?_); gs; done)
  | ((with_reducible refine g_otherEnd (by assumption) ?_); gs; done)
  | ((with_reducible refine g_ddLoop (by assumption) ?_); gs; done)
  | ((with_reducible refine g_closeP (by assumption) ?_); gs; done)
  | ((with_reducible refine g_closePIn (by assumption) ?_); gs; done)
  | ((with_reducible refine g_templateEnd (by assumption) ?_); gs; done)
  | ((with_reducible refine g_popNoscript (by assumption) ?_); gs; done)
  | ((with_reducible refine g_popRow (by assumption) ?_); gs; done)
  | ((with_reducible refine g_closeCaption (by assumption) ?_); gs; done)
  | ((with_reducible refine g_closeCell (by assumption) ?_); gs; done)
  | ((with_reducible refine g_closeSelect (by assumption) ?_); gs; done)
  | ((with_reducible refine g_reset' (by assumption) ?_); gs; done)
  | ((with_reducible refine g_templateEof (by assumption) (by assumption) ?_); gs; done)
  | ((with_reducible refine g_templateAs (by assumption) (by assumption) (by decide) ?_ ?_) <;> first | tg | (gs; done))
  | ((with_reducible refine Ens.ok ?_); gs; done)
  | with_reducible refine Ens.ite (fun _ => ?_) (fun _ => ?_)
  | with_reducible refine bindG ?_ (fun _ _ => ?_)
  | with_reducible refine bindP ?_ (fun _ _ => ?_)
  | with_reducible refine Ens.bind (Q := fun _ => True) Ens.triv (fun _ _ => ?_)
  | split)


theorem is_tag {t : Tag} {k : K} (h : t.is k = true) : t = .k k := by
  cases t with
  | other => cases h
  | k x => simpa [Tag.is] using h

theorem g_svg (cl : Closed T A B H) {t : Tag} {a : List At} {ns : Ns} (g : G H s) (ht : T t a) (hm : t.mem [.math, .svg] = true) (hn : ns ≠ .html) :
    Ens (G H) (insertForeign (keepSlots s (adjustForeign (adjustMath a))) ns t (adjustForeign (adjustMath a))) :=
  of_same g.1 same_insertForeign (cl.svg s t a ns g.2 ht hm hn)

theorem g_bodyStart2 (cl : Closed T A B H) (hre : Keep T H re) {t : Tag} {a : List At} {f : Bool} (g : G H s) (ht : T t a) :
    Ens (G H) (bodyStart2 re t a f s) := by
  unfold bodyStart2
  ens
  · exact Ens.ok (g_keepM (by assumption) cl)
  · next hi =>
    refine hre _ _ ?_ g
    exact cl.image _ (is_tag hi ▸ ht)
  · exact g_svg cl (by assumption) ht (by assumption) (by decide)
  · exact g_svg cl (by assumption) ht (by assumption) (by decide)

theorem g_bodyStart (cl : Closed T A B H) (hre : Keep T H re) {t : Tag} {a : List At} {f : Bool} (g : G H s) (ht : T t a) :
    Ens (G H) (bodyStart re t a f s) := by
  have hb : ∀ s, G H s → Ens (G H) (bodyStart2 re t a f s) := fun s g => g_bodyStart2 cl hre g ht
  unfold bodyStart
  refine Ens.ite (fun _ => g_htmlStart cl g ht) fun _ => Ens.ite (fun _ => g_inHeadStart cl g ht) fun _ => Ens.ite (fun _ => ?_) fun _ =>
    Ens.ite (fun _ => ?_) fun _ => ?_
  · refine Ens.bind (Q := fun o => ∀ e, o = some e → e ∈ s.stack) (fun o h e he => second_mem (he ▸ h)) fun o ho => ?_
    cases o with
    | none => exact Ens.ok g
    | some e => exact Ens.ite (fun _ => Ens.ok g) fun _ => Ens.ok ⟨g.1, cl.merge g.2 (ho e rfl) ht⟩
  · refine Ens.bind (Q := fun _ => True) Ens.triv fun o _ => ?_
    cases o with
    | none => exact Ens.ok g
    | some e =>
      refine Ens.ite (fun _ => Ens.ok g) fun _ => ?_
      split
      · exact Ens.err
      · refine Ens.ite (fun _ => Ens.err) fun _ => ?_
        refine Ens.bind (Q := fun l => l.Sublist s.stack) (fun l h => popToHtml_sub h) fun l hl => ?_
        exact Ens.bind (g_insert cl (g_stack cl g hl) ht) fun _ h => Ens.ok (g_to cl h (by decide))
  ens
  all_goals exact hb _ (by assumption)

theorem g_bodyEnd (cl : Closed T A B H) (hre : Keep T H re) {t : Tag} (g : G H s) : Ens (G H) (bodyEnd re t s) := by
  unfold bodyEnd
  ens

theorem g_onInBody (cl : Closed T A B H) (hre : Keep T H re) {tok : Tok} (g : G H s) (ht : Fits T tok) : Ens (G H) (onInBody re tok s) := by
  unfold onInBody
  cases tok with
  | start t a f => exact g_bodyStart cl hre g ht
  | fin t => exact g_bodyEnd cl hre g
  | _ => ens

theorem g_inTableElse (cl : Closed T A B H) (hre : Keep T H re) {tok : Tok} (g : G H s) (ht : Fits T tok) : Ens (G H) (inTableElse re tok s) :=
  Ens.bind (g_onInBody (s := { s with foster := true }) cl hre g ht) fun _ h => Ens.ok h

theorem g_tableStart (cl : Closed T A B H) (hre : Keep T H re) {t : Tag} {a : List At} {f : Bool} (g : G H s) (ht : T t a) :
    Ens (G H) (tableStart re t a f s) := by
  have hb := g_inTableElse cl hre (tok := .start t a f) g ht
  have ht' : Fits T (.start t a f) := ht
  unfold tableStart
  ens

theorem g_onInTable (cl : Closed T A B H) (hre : Keep T H re) {tok : Tok} (g : G H s) (ht : Fits T tok) : Ens (G H) (onInTable re tok s) := by
  have he : ∀ s, G H s → Ens (G H) (inTableElse re tok s) := fun _ g => g_inTableElse cl hre g ht
  have hi := g_onInBody cl hre g ht
  unfold onInTable
  cases tok with
  | start t a f => exact g_tableStart cl hre g ht
  | _ => (ens; all_goals exact he _ (by assumption))

theorem g_onInHead (cl : Closed T A B H) (hre : Keep T H re) {tok : Tok} (g : G H s) (ht : Fits T tok) : Ens (G H) (onInHead re tok s) := by
  unfold onInHead inHeadElse
  cases tok with
  | start t a f => (have ht' : T t a := ht); ens
  | _ => ens

theorem g_onInHeadNoscript (cl : Closed T A B H) (hre : Keep T H re) {tok : Tok} (g : G H s) (ht : Fits T tok) :
    Ens (G H) (onInHeadNoscript re tok s) := by
  have hi := g_onInHead cl hre g ht
  unfold onInHeadNoscript noscriptElse
  cases tok with
  | start t a f => (have ht' : T t a := ht); ens
  | _ => ens

theorem g_onInCaption (cl : Closed T A B H) (hre : Keep T H re) {tok : Tok} (g : G H s) (ht : Fits T tok) : Ens (G H) (onInCaption re tok s) := by
  have hi := g_onInBody cl hre g ht
  unfold onInCaption captionElse
  cases tok with
  | start t a f => (have ht' : T t a := ht); ens
  | _ => ens

theorem g_onInColumnGroup (cl : Closed T A B H) (hre : Keep T H re) {tok : Tok} (g : G H s) (ht : Fits T tok) :
    Ens (G H) (onInColumnGroup re tok s) := by
  have hi := g_onInBody cl hre g ht
  unfold onInColumnGroup colgroupElse
  cases tok with
  | start t a f => (have ht' : T t a := ht); ens
  | _ => ens

theorem g_onInTableBody (cl : Closed T A B H) (hre : Keep T H re) {tok : Tok} (g : G H s) (ht : Fits T tok) :
    Ens (G H) (onInTableBody re tok s) := by
  have hi := g_onInTable cl hre g ht
  unfold onInTableBody leaveBody
  cases tok with
  | start t a f => (have ht' : T t a := ht); ens
  | _ => ens

theorem g_onInRow (cl : Closed T A B H) (hre : Keep T H re) {tok : Tok} (g : G H s) (ht : Fits T tok) : Ens (G H) (onInRow re tok s) := by
  have hi := g_onInTable cl hre g ht
  unfold onInRow leaveRow
  cases tok with
  | start t a f => (have ht' : T t a := ht); ens
  | _ => ens

theorem g_onInCell (cl : Closed T A B H) (hre : Keep T H re) {tok : Tok} (g : G H s) (ht : Fits T tok) : Ens (G H) (onInCell re tok s) := by
  have hi := g_onInBody cl hre g ht
  unfold onInCell
  cases tok with
  | start t a f => (have ht' : T t a := ht); ens
  | _ => ens

theorem g_onInSelect (cl : Closed T A B H) (hre : Keep T H re) {tok : Tok} (g : G H s) (ht : Fits T tok) : Ens (G H) (onInSelect re tok s) := by
  have hi := g_onInBody cl hre g ht
  unfold onInSelect selectStart selectEnd
  cases tok with
  | start t a f => (have ht' : T t a := ht); ens
  | _ => ens

theorem g_onInSelectInTable (cl : Closed T A B H) (hre : Keep T H re) {tok : Tok} (g : G H s) (ht : Fits T tok) :
    Ens (G H) (onInSelectInTable re tok s) := by
  have hi := g_onInSelect cl hre g ht
  unfold onInSelectInTable
  cases tok with
  | start t a f => (have ht' : T t a := ht); ens
  | _ => ens

theorem g_onInTemplate (cl : Closed T A B H) (hre : Keep T H re) {tok : Tok} (g : G H s) (ht : Fits T tok) : Ens (G H) (onInTemplate re tok s) := by
  have hi := g_onInBody cl hre g ht
  unfold onInTemplate
  cases tok with
  | start t a f => (have ht' : T t a := ht); ens
  | _ => ens

theorem g_onAfterBody (cl : Closed T A B H) (hre : Keep T H re) {tok : Tok} (g : G H s) (ht : Fits T tok) : Ens (G H) (onAfterBody re tok s) := by
  have hi := g_onInBody cl hre g ht
  unfold onAfterBody
  cases tok with
  | start t a f => (have ht' : T t a := ht); ens
  | comment t => exact g_commentFront cl g
  | _ => ens

theorem g_onAfterAfterBody (cl : Closed T A B H) (hre : Keep T H re) {tok : Tok} (g : G H s) (ht : Fits T tok) :
    Ens (G H) (onAfterAfterBody re tok s) := by
  have hi := g_onInBody cl hre g ht
  unfold onAfterAfterBody
  cases tok with
  | start t a f => (have ht' : T t a := ht); ens
  | _ => ens

theorem g_onAfterAfterFrameset (cl : Closed T A B H) (hre : Keep T H re) {tok : Tok} (g : G H s) (ht : Fits T tok) :
    Ens (G H) (onAfterAfterFrameset re tok s) := by
  have hi := g_onInBody cl hre g ht
  unfold onAfterAfterFrameset
  cases tok with
  | start t a f => (have ht' : T t a := ht); ens
  | _ => ens

theorem g_onInFrameset (cl : Closed T A B H) {tok : Tok} (g : G H s) (ht : Fits T tok) : Ens (G H) (onInFrameset tok s) := by
  unfold onInFrameset
  cases tok with
  | start t a f => (have ht' : T t a := ht); ens
  | _ => ens

theorem g_onAfterFrameset (cl : Closed T A B H) {tok : Tok} (g : G H s) (ht : Fits T tok) : Ens (G H) (onAfterFrameset tok s) := by
  unfold onAfterFrameset
  cases tok with
  | start t a f => (have ht' : T t a := ht); ens
  | _ => ens

theorem g_onBeforeHead (cl : Closed T A B H) (hre : Keep T H re) {tok : Tok} (g : G H s) (ht : Fits T tok) :
    Ens (G H) (onBeforeHead re tok s) := by
  unfold onBeforeHead beforeHeadElse
  cases tok with
  | start t a f =>
    have ht' : T t a := ht
    ens
    next hi => exact g_insertHead cl g (is_tag hi ▸ ht')
  | _ => ens

theorem g_onAfterHead (cl : Closed T A B H) (hre : Keep T H re) {tok : Tok} (g : G H s) (ht : Fits T tok) :
    Ens (G H) (onAfterHead re tok s) := by
  unfold onAfterHead afterHeadElse
  cases tok with
  | start t a f =>
    have ht' : T t a := ht
    refine Ens.ite (fun _ => g_htmlStart cl g ht) fun _ => Ens.ite (fun _ => ?_) fun _ => Ens.ite (fun _ => ?_) fun _ =>
      Ens.ite (fun _ => ?_) fun _ => ?_
    · ens
    · ens
    · split
      · exact Ens.err
      · next h hh =>
        have g' : G H { s with stack := ⟨h, .html, .k .head, []⟩ :: s.stack } := by
          refine ⟨g.1, ?_⟩
          have := g.2
          unfold Pred.at at this ⊢
          rw [hh] at this
          change H s.dom (⟨h, .html, .k .head, []⟩ :: s.stack) s.fmt s.head s.slots
          rw [hh]
          exact cl.pushHead this
        exact Ens.bind (g_inHeadStart cl g' ht) fun _ h => Ens.ok (g_stack cl h List.filter_sublist)
    · ens
  | _ => ens

theorem g_onText (cl : Closed T A B H) (hre : Keep T H re) {tok : Tok} (g : G H s) (hm : s.mode ∈ pass) (ht : Fits T tok) :
    Ens (G H) (onText re tok s) := by
  unfold onText
  have hp : ∀ s', pop s = .ok s' → G H (s'.to s'.orig) := by
    intro s' h
    have g' := g_pop cl g s' h
    obtain ⟨h1, h2, h3⟩ := same_pop s' h
    exact ⟨g'.1.back (s := s') (h3 ▸ hm) rfl rfl rfl, g'.2⟩
  split
  · exact g_char cl g
  · refine Ens.bind (Q := fun _ => True) Ens.triv fun _ _ => Ens.bind (Q := fun s' : S => G H (s'.to s'.orig)) hp fun s' h => hre _ _ trivial h
  · exact Ens.bind (Q := fun s' : S => G H (s'.to s'.orig)) hp fun s' h => Ens.ok h
  · exact Ens.ok g

theorem g_fosterChars (cl : Closed T A B H) (hre : Keep T H re) : ∀ {l : List Nat} {s : S}, G H s → Ens (G H) (fosterChars re l s)
  | [], _, g => Ens.ok g
  | _ :: _, _, g => Ens.bind (g_inTableElse cl hre g trivial) fun _ h => g_fosterChars cl hre h

theorem g_onInTableText (cl : Closed T A B H) (hre : Keep T H re) {tok : Tok} (g : G H s) (hm : s.mode ∈ pass) (ht : Fits T tok) :
    Ens (G H) (onInTableText re tok s) := by
  unfold onInTableText
  have back : ∀ r : R S, Ens (G H) r → Ens (Same s) r → Ens (G H) (r >>= fun s => re tok (s.to s.orig)) := by
    intro r h1 h2
    refine Ens.bind (Q := fun s' : S => G H (s'.to s'.orig)) (fun s' h => ?_) fun s' h => hre _ _ ht h
    obtain ⟨h3, h4, h5⟩ := h2 s' h
    exact ⟨(h1 s' h).1.back (s := s') (h5 ▸ hm) rfl rfl rfl, (h1 s' h).2⟩
  split
  · exact Ens.ite (fun _ => Ens.ok g) fun _ => Ens.ok g
  · dsimp only
    split
    · exact back _ (g_fosterChars cl hre g) same_fosterChars
    · exact back _ (g_chars cl g) same_insertChars

theorem g_byMode (cl : Closed T A B H) {tbl : List Nat → Bool} (hre : Keep T H re) {tok : Tok} (g : G H s) (ht : Fits T tok) :
    Ens (G H) (byMode tbl re tok s) := by
  unfold byMode
  split <;> rename_i hm
  · exact absurd g.1.1 (by rw [hm]; decide)
  · exact absurd g.1.1 (by rw [hm]; decide)
  all_goals first
    | exact g_onText cl hre g (by rw [hm]; decide) ht
    | exact g_onInTableText cl hre g (by rw [hm]; decide) ht
    | exact g_onBeforeHead cl hre g ht
    | exact g_onInHead cl hre g ht
    | exact g_onInHeadNoscript cl hre g ht
    | exact g_onAfterHead cl hre g ht
    | exact g_onInBody cl hre g ht
    | exact g_onInTable cl hre g ht
    | exact g_onInCaption cl hre g ht
    | exact g_onInColumnGroup cl hre g ht
    | exact g_onInTableBody cl hre g ht
    | exact g_onInRow cl hre g ht
    | exact g_onInCell cl hre g ht
    | exact g_onInSelect cl hre g ht
    | exact g_onInSelectInTable cl hre g ht
    | exact g_onInTemplate cl hre g ht
    | exact g_onAfterBody cl hre g ht
    | exact g_onInFrameset cl g ht
    | exact g_onAfterFrameset cl g ht
    | exact g_onAfterAfterBody cl hre g ht
    | exact g_onAfterAfterFrameset cl hre g ht

theorem g_onForeign (cl : Closed T A B H) {tbl : List Nat → Bool} (hre : Keep T H re) {tok : Tok} {e : Entry} {l : List Entry} (g : G H s)
    (hs : s.stack = e :: l) (hn : ∀ t a f, tok = .start t a f → e.ns ≠ .html) (ht : Fits T tok) : Ens (G H) (onForeign tbl re tok s) := by
  unfold onForeign
  split
  · ens
  · ens
  · ens
  · next t a f =>
    unfold foreignStart
    refine Ens.ite (fun _ => ?_) fun _ => ?_
    · refine Ens.bind (g_pop cl g) fun s' h => ?_
      exact Ens.bind (Q := fun l => l.Sublist s'.stack) (fun l h => popForeign_sub h) fun l hl => hre _ _ ht (g_stack cl h hl)
    · have : cur s = .ok e := by unfold cur; rw [hs]
      rw [this]
      have hn' := hn t a f rfl
      have step : ∀ a', a' = a ∨ a' = adjustMath a ∨ a' = adjustSvg a →
          Ens (G H) (insertForeign (keepSlots s (adjustForeign a')) e.ns t (adjustForeign a')) :=
        fun a' ha => of_same g.1 same_insertForeign (cl.foreign s e l t a a' g.2 ht hs hn' ha)
      show Ens (G H) (insertForeign (keepSlots s _) e.ns t _ >>= _)
      refine Ens.bind (step _ ?_) fun _ h => Ens.ite (fun _ => g_pop cl h) fun _ => Ens.ok h
      cases e.ns <;> simp
  · unfold foreignEnd
    refine Ens.bind (Q := fun _ => True) Ens.triv fun _ _ => Ens.ite (fun _ => g_pop cl g) fun _ => ?_
    split
    · exact Ens.ok g
    · exact Ens.ok (g_popUntil cl g)
    · exact g_byMode cl hre g trivial
  · exact Ens.err

/-! Before there is an element. -/

theorem commentAt_eq {pl : Place} {t : List Nat} {s' : S} (h : commentAt s pl t = .ok s') : ∃ d, s' = { s with dom := d } := by
  unfold commentAt at h
  cases hl : link (s.dom ++ [⟨.comment t, none, []⟩]) pl s.dom.length with
  | error e => rw [hl] at h; cases h
  | ok d => rw [hl] at h; cases h; exact ⟨d, rfl⟩


/-- The state before there is an element, or behind. -/
def I (A B : Dom → Prop) (H : Pred) (s : S) : Prop :=
  G H s ∨ (s.mode = .initial ∧ Pre A s) ∨ (s.mode = .beforeHtml ∧ Pre B s)

theorem g_root (cl : Closed T A B H) {a : List At} (h : Pre B s) (ht : T (.k .html) a) : Ens (G H) (insertRoot s a) := by
  intro s' e
  refine ⟨?_, cl.root s a h ht s' e⟩
  obtain ⟨d, n, rfl⟩ := insertRoot_ok e
  refine ⟨?_, fun hm => absurd hm ?_, ?_⟩
  · show Mode.beforeHead ∉ early; decide
  · show Mode.beforeHead ∉ pass; decide
  show ∀ m ∈ s.tmpl, _
  rw [h.2.2.2.2.2]
  exact fun m hm => by cases hm

/-- Reprocessing keeps it. -/
def KeepI (T : Tag → List At → Prop) (A B : Dom → Prop) (H : Pred) (re : Re) : Prop := ∀ tok s, Fits T tok → I A B H s → Ens (I A B H) (re tok s)

theorem i_beforeHtml (cl : Closed T A B H) (hre : KeepI T A B H re) {tok : Tok} (hm : s.mode = .beforeHtml) (h : Pre B s) (ht : Fits T tok) :
    Ens (I A B H) (onBeforeHtml re tok s) := by
  have here : Ens (I A B H) (.ok s : R S) := Ens.ok (.inr (.inr ⟨hm, h⟩))
  have other : Ens (I A B H) (beforeHtmlElse re tok s) :=
    Ens.bind (g_root cl h (cl.implied _ (by decide))) fun _ h => hre _ _ ht (.inl h)
  unfold onBeforeHtml
  split
  · exact here
  · refine fun s' e => .inr (.inr ⟨?_, ?_⟩)
    · rw [(same_commentAt s' e).2.2, hm]
    · refine ⟨cl.commentB s _ h.1 s' e, ?_⟩
      obtain ⟨d, rfl⟩ := commentAt_eq e
      exact h.2
  · exact Ens.ite (fun _ => here) fun _ => other
  · refine Ens.ite (fun hi => ?_) fun _ => other
    exact (g_root cl h (is_tag hi ▸ ht)).mono fun _ => .inl
  · exact Ens.ite (fun _ => other) fun _ => here
  · exact other

theorem i_initial (cl : Closed T A B H) {tbl : List Nat → Bool} (hre : KeepI T A B H re) {tok : Tok} (hm : s.mode = .initial) (h : Pre A s)
    (ht : Fits T tok) : Ens (I A B H) (onInitial tbl re tok s) := by
  have here : Ens (I A B H) (.ok s : R S) := Ens.ok (.inr (.inl ⟨hm, h⟩))
  have other : Ens (I A B H) (initialElse re tok s) := hre _ _ ht (.inr (.inr ⟨rfl, cl.weak _ h.1, h.2⟩))
  unfold onInitial
  split
  · exact Ens.ite (fun _ => here) fun _ => other
  · refine fun s' e => .inr (.inl ⟨?_, ?_⟩)
    · rw [(same_commentAt s' e).2.2, hm]
    · refine ⟨cl.commentA s _ h.1 s' e, ?_⟩
      obtain ⟨d, rfl⟩ := commentAt_eq e
      exact h.2
  · exact Ens.bind (cl.doctype _ _ _ _ h.1) fun d hd => Ens.ok (.inr (.inr ⟨rfl, hd, h.2⟩))
  · exact other

theorem g_process (cl : Closed T A B H) {tbl : List Nat → Bool} {n : Nat} : Keep T H (process tbl n) := by
  induction n with
  | zero => exact fun _ _ _ _ => Ens.err
  | succ n ih =>
    intro tok s ht g
    unfold process
    refine Ens.ite (fun _ => Ens.ok g) fun _ => ?_
    have g' : G H { s with omitLf := false } := g
    unfold step
    split
    · exact g_byMode cl ih g' ht
    · next e l hs =>
      refine Ens.ite (fun _ => g_byMode cl ih g' ht) fun hb => g_onForeign cl ih g' hs (fun t a f e hn => ?_) ht
      subst e
      exact hb (by simp [byRules, hn])

theorem i_process (cl : Closed T A B H) {tbl : List Nat → Bool} {n : Nat} : KeepI T A B H (process tbl n) := by
  induction n with
  | zero => exact fun _ _ _ _ => Ens.err
  | succ n ih =>
    intro tok s ht h
    rcases h with g | ⟨hm, h⟩ | ⟨hm, h⟩
    · exact (g_process cl tok s ht g).mono fun _ => .inl
    · unfold process
      refine Ens.ite (fun _ => Ens.ok (.inr (.inl ⟨hm, h⟩))) fun _ => ?_
      have hs : ({ s with omitLf := false } : S).stack = [] := h.2.1
      unfold step
      rw [hs]
      dsimp only
      unfold byMode
      simp only [hm]
      exact i_initial cl ih rfl ⟨h.1, rfl, h.2.2⟩ ht
    · unfold process
      refine Ens.ite (fun _ => Ens.ok (.inr (.inr ⟨hm, h⟩))) fun _ => ?_
      have hs : ({ s with omitLf := false } : S).stack = [] := h.2.1
      unfold step
      rw [hs]
      dsimp only
      unfold byMode
      simp only [hm]
      exact i_beforeHtml cl ih rfl ⟨h.1, rfl, h.2.2⟩ ht

theorem i_emit (cl : Closed T A B H) {tbl : List Nat → Bool} {tok : Tok} (h : I A B H s) (ht : Fits T tok) : Ens (I A B H) (emit tbl tok s) :=
  i_process cl _ _ ht h

theorem i_init (cl : Closed T A B H) : I A B H init := .inr (.inl ⟨rfl, cl.init, rfl, rfl, rfl, rfl, rfl⟩)

end Verif.Proof.HtmlTree.Walk
