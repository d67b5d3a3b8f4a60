import Verif.Proof.HtmlTreeSafe3
/- The invariant of tree construction, for C105, and the steps of "in body". -/
namespace Verif.Proof.HtmlTree.Safe
open Verif.Model.HtmlTree
open Verif.Proof.HtmlTree.Forest (Kept Wf Deep Elem tagAt els Has)

/-- Only the root. -/
def OnlyHtml (st : List Entry) : Prop := ∃ e, st = [e] ∧ Nm e [.html]

/-- A `select` with options above it. -/
def Sel (st : List Entry) : Prop := ∃ opts e z rest, st = opts ++ e :: rest ∧ (∀ x ∈ opts, Plain x) ∧ Nm e [.select] ∧ Sh z rest

/-- The root has a head and a frameset, and `noframes` elements behind them. -/
def HasF (d : Dom) : Prop := ∃ n, Has d (.head :: .frameset :: List.replicate n .noframes)

/-- What tree, stack, list and head element are like in an insertion mode. -/
def Fits (d : Dom) : Mode → List Entry → List Fmt → Option Nat → Prop
  | .initial, st, f, _ => st = [] ∧ f = [] ∧ els d 0 = []
  | .beforeHtml, st, f, _ => st = [] ∧ f = [] ∧ els d 0 = []
  | .beforeHead, st, f, _ => OnlyHtml st ∧ f = [] ∧ Has d []
  | .inHead, st, f, h => (∃ a b, st = [a, b] ∧ Nm a [.head] ∧ Nm b [.html]) ∧ f = [] ∧ h ≠ none
  | .inHeadNoscript, st, f, h => (∃ n a b, st = [n, a, b] ∧ Nm n [.noscript] ∧ Nm a [.head] ∧ Nm b [.html]) ∧ f = [] ∧ h ≠ none
  | .afterHead, st, f, h => OnlyHtml st ∧ f = [] ∧ h ≠ none ∧ Has d [.head]
  | .inBody, st, _, _ => Sh .body st
  | .inTable, st, _, _ => Sh .table st
  | .inCaption, st, _, _ => Sh .caption st
  | .inColumnGroup, st, _, _ => Sh .group st
  | .inTableBody, st, _, _ => Sh .sec st
  | .inRow, st, _, _ => Sh .row st
  | .inCell, st, _, _ => Sh .cell st
  | .inSelect, st, _, _ => Sel st
  | .inSelectInTable, st, _, _ => Sel st
  | .afterBody, st, _, _ => Sh .body st
  | .inFrameset, st, f, _ => (∃ l e, st = l ++ [e] ∧ l ≠ [] ∧ (∀ x ∈ l, Nm x [.frameset]) ∧ Nm e [.html]) ∧ f = []
  | .afterFrameset, st, f, _ => OnlyHtml st ∧ f = [] ∧ HasF d
  | .afterAfterBody, st, _, _ => Sh .body st
  | .afterAfterFrameset, st, f, _ => OnlyHtml st ∧ f = [] ∧ HasF d
  | .text, _, _, _ => False
  | .inTableText, _, _, _ => False
  | .inTemplate, _, _, _ => False

/-- The same with the modes that return to another one. -/
def Mfit (d : Dom) (m o : Mode) (st : List Entry) (f : List Fmt) (h : Option Nat) : Prop :=
  match m with
  | .text => ∃ e l, st = e :: l ∧ Plain e ∧ Rooted l ∧ Fits d o l f h
  | .inTableText => (o = .inTable ∨ o = .inTableBody ∨ o = .inRow) ∧ Fits d o st f h
  | m => Fits d m st f h

/-- The invariant. -/
def Inv (q : Prop) (s : S) : Prop := Core q s ∧ Mfit s.dom s.mode s.orig s.stack s.fmt s.head

/-- What the tree is like at the end. -/
def Done (d : Dom) : Prop := Wf d ∧ (Has d [.head, .body] ∨ HasF d)

theorem HasF.kept {d d' : Dom} (h : HasF d) (w : Wf d) (u : Kept d d') : HasF d' := by
  obtain ⟨n, h⟩ := h
  exact ⟨n, h.kept w u⟩

theorem Fits.kept {d d' : Dom} {m : Mode} {st : List Entry} {f : List Fmt} {h : Option Nat} (hf : Fits d m st f h) (w : Wf d) (u : Kept d d') :
    Fits d' m st f h := by
  cases m <;> first
    | exact hf
    | exact ⟨hf.1, hf.2.1, by rw [u.root w]; exact hf.2.2⟩
    | exact ⟨hf.1, hf.2.1, Has.kept hf.2.2 w u⟩
    | exact ⟨hf.1, hf.2.1, hf.2.2.1, Has.kept hf.2.2.2 w u⟩
    | exact ⟨hf.1, hf.2.1, HasF.kept hf.2.2 w u⟩

theorem Mfit.kept {d d' : Dom} {m o : Mode} {st : List Entry} {f : List Fmt} {h : Option Nat} (hf : Mfit d m o st f h) (w : Wf d) (u : Kept d d') :
    Mfit d' m o st f h := by
  cases m <;> simp only [Mfit] at hf ⊢
  case text =>
    obtain ⟨e, l, h1, h2, h3, h4⟩ := hf
    exact ⟨e, l, h1, h2, h3, h4.kept w u⟩
  case inTableText => exact ⟨hf.1, Fits.kept hf.2 w u⟩
  all_goals exact Fits.kept hf w u

/-- The tokens that are looked at: no `button`, no foreign content, no template; formatting elements only under `q`. -/
def Fine (q : Prop) : Tok → Prop
  | .start t _ _ => t.mem [.button, .svg, .math, .template] = false ∧ (t.mem (.a :: .nobr :: fmtTags) = true → q)
  | _ => True

/-- What holds after a token. -/
def After (q : Prop) : Tok → S → Prop
  | .eof, s => Done s.dom
  | _, s => Inv q s

/-- What is shown about a token. -/
def Good (q : Prop) (tok : Tok) (r : R S) : Prop := Sat q (After q tok) r

variable {q : Prop} {s : S} {z : Zone} {re : Re}

theorem Fits.mfit {d : Dom} {m o : Mode} {st : List Entry} {f : List Fmt} {h : Option Nat} (hf : Fits d m st f h) : Mfit d m o st f h := by
  cases m <;> first | exact hf | exact hf.elim

theorem After.of {tok : Tok} (ht : tok ≠ .eof) : After q tok s = Inv q s := by
  cases tok <;> first | rfl | exact absurd rfl ht

theorem Good.of {tok : Tok} {r : R S} (h : Sat q (Inv q) r) (ht : tok ≠ .eof := by simp) : Good q tok r := h.mono fun _ h => by rw [After.of ht]; exact h

theorem Good.to {tok : Tok} {r : R S} (h : Good q tok r) (ht : tok ≠ .eof) : Sat q (Inv q) r := h.mono fun _ h => by rwa [After.of ht] at h

/-- A mode that belongs to a zone. -/
def Of (z : Zone) (m : Mode) : Prop := m = z.mode ∨ (z = .body ∧ (m = .afterBody ∨ m = .afterAfterBody))

/-- A state in a zone. -/
def Body (q : Prop) (z : Zone) (s : S) : Prop := Core q s ∧ Sh z s.stack ∧ Of z s.mode

theorem Of.fits {d : Dom} {m : Mode} {st : List Entry} {f : List Fmt} {h : Option Nat} (ho : Of z m) (hs : Sh z st) : Fits d m st f h := by
  rcases ho with rfl | ⟨rfl, rfl | rfl⟩
  · cases z <;> exact hs
  · exact hs
  · exact hs

theorem Body.inv (h : Body q z s) : Inv q s := ⟨h.1, (h.2.2.fits h.2.1).mfit⟩

theorem Body.done (h : Body q z s) : Done s.dom := ⟨h.1.tops.wf, .inl (h.2.1.has h.1.tops)⟩

theorem Body.after {tok : Tok} (h : Body q z s) : After q tok s := by
  cases tok <;> first | exact h.inv | exact h.done

theorem Body.dp (h : Body q z s) : Dp s.stack := h.2.1.dp

theorem Body.tame (h : Body q z s) : Tame s.dom := h.2.1.tame h.1.tops

theorem Body.root (h : Body q z s) : Rooted s.stack := h.2.1.rooted

theorem Body.again {tok : Tok} (hre : ∀ tok s, Fine q tok → Inv q s → Good q tok (re tok s)) (h : Body q z s) (hf : Fine q tok) : Good q tok (re tok s) :=
  hre tok s hf h.inv

theorem mem_not {t : Tag} {l m : List K} (h : t.mem l = true) (hd : ∀ x ∈ l, x ∉ m) : t.mem m = false := by
  cases t with
  | other => rfl
  | k x =>
    simp only [Tag.mem, List.contains_eq_mem, decide_eq_true_eq, decide_eq_false_iff_not] at h ⊢
    exact hd x h

theorem is_not {t : Tag} {k : K} {m : List K} (h : t.is k = true) (hd : k ∉ m) : t.mem m = false := by
  rw [is_iff.mp h]
  simpa [Tag.mem] using hd

/-- A name of none of some lists. -/
theorem none_of {t : Tag} {m : List K} (h : ∀ k ∈ m, t ≠ .k k) : t.mem m = false := by
  cases t with
  | other => rfl
  | k x =>
    simp only [Tag.mem, List.contains_eq_mem, decide_eq_false_iff_not]
    exact fun hx => h x hx rfl

theorem ne_is {t : Tag} {k : K} (h : ¬ t.is k = true) : t ≠ .k k := fun hc => h (is_iff.mpr hc)

theorem ne_mem {t : Tag} {k : K} {l : List K} (h : ¬ t.mem l = true) (hk : k ∈ l) : t ≠ .k k := by
  rintro rfl
  exact h (by simpa [Tag.mem] using hk)

theorem ne_of {t : Tag} {k : K} {l : List K} (h : t.mem l = false) (hk : k ∈ l) : t ≠ .k k := ne_mem (by simp [h]) hk

theorem cur_bind {α : Type} {P : α → Prop} {f : Entry → R α} (hr : Rooted s.stack) (hf : ∀ e l, s.stack = e :: l → Sat q P (f e)) :
    Sat q P (cur s >>= f) := by
  cases hs : s.stack with
  | nil => exact absurd hs hr.ne
  | cons e l =>
    have : cur s = .ok e := by unfold cur; rw [hs]
    rw [this, bind_ok]
    exact hf e l hs

theorem scope_bind {α : Type} {P : α → Prop} {sc p : Entry → Bool} (hsc : ∀ e, defaultScope e = true → sc e = true) {st : List Entry}
    (h : Sh z st) (hp : ∀ x ∈ st, p x = true → Plain x) {f : Bool → R α} (h0 : Sat q P (f false)) (h1 : Hit p z st → Sat q P (f true)) :
    Sat q P (inScope sc p st >>= f) := by
  rcases scope_sh hsc h hp with e | ⟨e, hit⟩
  · rw [e]; exact h0
  · rw [e]; exact h1 hit

theorem scope_any {sc p : Entry → Bool} (hsc : ∀ e, Nm e [.html] → sc e = true) {st : List Entry} (h : Rooted st) : ∃ b, inScope sc p st = .ok b := by
  obtain ⟨l, e, rfl, he⟩ := h
  induction l with
  | nil =>
    simp only [List.nil_append]
    unfold inScope
    rw [hsc e he]
    by_cases hp : p e = true
    · exact ⟨true, by simp [hp]⟩
    · exact ⟨false, by simp [hp]⟩
  | cons x l ih =>
    simp only [List.cons_append]
    unfold inScope
    obtain ⟨b, hb⟩ := ih
    split
    · exact ⟨_, rfl⟩
    · split
      · exact ⟨_, rfl⟩
      · exact ⟨b, hb⟩

theorem any_bind {α : Type} {P : α → Prop} {sc p : Entry → Bool} (hsc : ∀ e, Nm e [.html] → sc e = true) {st : List Entry}
    (h : Rooted st) {f : Bool → R α} (hf : ∀ b, Sat q P (f b)) : Sat q P (inScope sc p st >>= f) := by
  obtain ⟨b, hb⟩ := scope_any (p := p) hsc h
  rw [hb]
  exact hf b

theorem is_plain {k : K} (hk : k ∉ structural) : ∀ x ∈ s.stack, Entry.is x k = true → Plain x := fun _ _ h => plain_of (is_tag h).1 (is_tag h).2 hk

theorem isTag_eq {e : Entry} {t : Tag} (h : e.isTag t = true) : e.ns = .html ∧ e.tag = t := by
  unfold Entry.isTag at h
  rw [Bool.and_eq_true] at h
  exact ⟨by simpa using h.1, by simpa using h.2⟩

theorem isTag_plain {t : Tag} (ht : t.mem structural = false) : ∀ x ∈ s.stack, Entry.isTag x t = true → Plain x := fun _ _ h =>
  ⟨(isTag_eq h).1, by rw [(isTag_eq h).2]; exact ht⟩

theorem isIn_plain {l : List K} (hl : ∀ k ∈ l, k ∉ structural) : ∀ x ∈ s.stack, Entry.isIn x l = true → Plain x := by
  intro x _ h
  unfold Entry.isIn at h
  rw [Bool.and_eq_true] at h
  exact ⟨by simpa using h.1, mem_not h.2 hl⟩

/-! Steps that stay in the zone. -/

theorem Body.with_fmt (h : Body q z s) {f : List Fmt} (hf : ∀ e, Fmt.el e ∈ f → Fmt.el e ∈ s.fmt) : Body q z { s with fmt := f } :=
  ⟨CoreOf.fmt' h.1 hf, h.2⟩

theorem Body.clear (h : Body q z s) : Body q z s.clearFmt := h.with_fmt (clear_sub _)

theorem Body.marker (h : Body q z s) : Body q z (pushMarker s) := h.with_fmt fun e he => by
  rcases List.mem_cons.mp he with he | he
  · cases he
  · exact he

theorem Body.to_sub (h : Body q z s) {st : List Entry} (hs : List.Sublist st s.stack) (hz : Sh z st) : Body q z { s with stack := st } :=
  ⟨CoreOf.sub h.1 hs, hz, h.2.2⟩

theorem Body.implied (h : Body q z s) (keep : Entry → Bool) : Body q z (s.implied keep) := h.to_sub (implied_suffix _ _).sublist h.2.1.implied

theorem Body.popUntil (h : Body q z s) {p : Entry → Bool} (hit : Hit p z s.stack) : Body q z (s.popUntil p) :=
  h.to_sub (popUntil_suffix _ _).sublist (popUntil_hit hit)

theorem Body.pop {e : Entry} {l : List Entry} (h : Body q z s) (hs : s.stack = e :: l) (he : Plain e) : Sat q (Body q z) (pop s) := by
  have : Verif.Model.HtmlTree.pop s = .ok { s with stack := l } := by unfold Verif.Model.HtmlTree.pop; rw [hs]
  rw [this]
  exact h.to_sub (by rw [hs]; exact List.sublist_cons_self _ _) ((hs ▸ h.2.1).tail he)

theorem Body.insert (h : Body q z s) {t : Tag} (ht : t.mem structural = false) (attrs : List At) : Sat q (Body q z) (insertHtml s t attrs) := by
  obtain ⟨d, h1, h2, h3, h4⟩ := insertHtml_ok h.1 h.dp (Ins.plain ht) attrs
  rw [h1]
  exact ⟨h4, h.2.1.push ⟨rfl, ht⟩, h.2.2⟩

theorem Body.insertPop (h : Body q z s) {t : Tag} (ht : Ins s.dom t) (attrs : List At) : Sat q (Body q z) (insertPop s t attrs) := by
  obtain ⟨d, h1, h2, -⟩ := insertPop_ok h.1 h.dp ht attrs
  rw [h1]
  exact ⟨h2, h.2⟩

theorem Opened.body {s' : S} (h : Body q z s) (ho : Opened q s s') : Body q z s' := by
  obtain ⟨d, new, f, rfl, h1, h2, -⟩ := ho
  exact ⟨h2, h.2.1.pushes h1, h.2.2⟩

theorem Body.reconstruct (h : Body q z s) : Sat q (Body q z) (reconstruct s) := by
  obtain ⟨s', h1, h2⟩ := reconstruct_ok h.1 h.dp
  rw [h1]
  exact h2.body h

theorem Body.fmtEl (hq : q) (h : Body q z s) {t : Tag} (ht : t.mem structural = false) (attrs : List At) : Sat q (Body q z) (insertFmtEl s t attrs) := by
  obtain ⟨s', h1, h2⟩ := insertFmtEl_ok hq h.1 h.dp ht attrs
  rw [h1]
  exact h2.body h

theorem Adopted.body {s' : S} (h : Body q z s) (ho : Adopted q z s s') : Body q z s' := by
  obtain ⟨d, st, f, rfl, h1, h2, h3, h4⟩ := ho
  exact ⟨h1, h2, h.2.2⟩

theorem Body.char (h : Body q z s) (c : Nat) : Sat q (Body q z) (insertChar s c) := by
  obtain ⟨d, h1, h2, -⟩ := insertChar_ok h.1 h.root c
  rw [h1]
  exact ⟨h2, h.2⟩

theorem Body.comment (h : Body q z s) (t : List Nat) : Sat q (Body q z) (insertComment s t) := by
  obtain ⟨d, h1, h2, -⟩ := insertComment_ok h.1 h.root t
  rw [h1]
  exact ⟨h2, h.2⟩

theorem Body.htmlStart (h : Body q z s) (attrs : List At) : Sat q (Body q z) (htmlStart s attrs) := by
  obtain ⟨d, h1, h2, -⟩ := htmlStart_ok h.1 h.root attrs
  rw [h1]
  exact ⟨h2, h.2⟩

theorem Body.closeP (h : Body q z s) (hit : Hit (·.is .p) z s.stack) : Sat q (Body q z) (closeP s) := by
  unfold Verif.Model.HtmlTree.closeP
  dsimp only
  refine cur_bind (h.implied _).root fun e l he => ?_
  refine (h.implied _).popUntil (implied_hit hit fun x _ hx _ => .inl ?_)
  show x.tag.is .p = true
  rw [(is_tag hx).2]; rfl

theorem Body.closePIn (h : Body q z s) : Sat q (Body q z) (closePIn s) := by
  unfold Verif.Model.HtmlTree.closePIn
  refine scope_bind sc_button h.2.1 (is_plain (by decide)) ?_ fun hit => ?_
  · exact h
  · exact h.closeP hit

/-- The elements of a name in scope are closed, end tags being implied. -/
theorem Body.closeTo (h : Body q z s) {p keep : Entry → Bool} (hit : Hit p z s.stack)
    (hk : ∀ x ∈ s.stack, p x = true → Plain x → keep x = true ∨ x.isIn impliedK = false) :
    Body q z ((s.implied keep).popUntil p) := (h.implied _).popUntil (implied_hit hit hk)

theorem has_no (h : Core q s) : has s .template = false := by
  unfold has
  rw [List.any_eq_false]
  intro e he hc
  exact (h.names e he).2 (is_tag hc).2

theorem templateEnd_eq (h : Core q s) : templateEnd s = .ok s := by
  unfold templateEnd
  rw [has_no h]
  simp

/-- The start tags of "in head". -/
theorem headStart_eq (h : Core q s) (hr : Dp s.stack) {t : Tag} (ht : t.mem headTags = true) (hn : t ≠ .k .template) (attrs : List At) :
    ∃ d, Up s.dom d ∧ (inHeadStart t attrs s = .ok { s with dom := d } ∨
      ∃ sw, s.dom.length < d.length ∧ t.mem structural = false ∧ tagAt d s.dom.length = some (.html, t) ∧
        inHeadStart t attrs s = .ok { s with dom := d, stack := ⟨s.dom.length, .html, t, attrs⟩ :: s.stack, switch := some sw, orig := s.mode, mode := .text}) := by
  have hpl : t.mem structural = false := by
    cases t with
    | other => rfl
    | k x =>
      simp only [Tag.mem, List.contains_eq_mem, decide_eq_true_eq, decide_eq_false_iff_not] at ht ⊢
      have : ∀ x ∈ headTags, x = .template ∨ x ∉ structural := by decide
      exact (this x ht).resolve_left fun hc => hn (by rw [hc])
  obtain ⟨d, h1, h2, h3, h3'⟩ := insertHtml_ok h hr (Ins.plain hpl) attrs
  have h4 : tagAt d s.dom.length = some (.html, t) := h3'.tops.tags ⟨s.dom.length, .html, t, attrs⟩ (by simp)
  refine ⟨d, h2, ?_⟩
  unfold inHeadStart insertPop rawText
  rw [h1]
  split
  · exact .inl rfl
  · split
    · rename_i hk
      exact .inr ⟨_, h3, is_not hk (by decide), h4, rfl⟩
    · split
      · rename_i hk
        exact .inr ⟨_, h3, mem_not hk (by decide), h4, rfl⟩
      · split
        · rename_i hk
          exact .inr ⟨_, h3, is_not hk (by decide), h4, rfl⟩
        · rename_i h1 h2 h3 h4
          exfalso
          cases t with
          | other => simp [Tag.mem] at ht
          | k x =>
            simp only [Tag.mem, headTags, List.contains_eq_mem, decide_eq_true_eq, List.mem_cons, List.not_mem_nil, or_false] at ht h1 h3
            rcases ht with rfl | rfl | rfl | rfl | rfl | rfl | rfl | rfl | rfl | rfl <;> simp_all [Tag.is]

theorem headStart_ok (h : Core q s) (hr : Dp s.stack) (hf : Fits s.dom s.mode s.stack s.fmt s.head) {t : Tag} (ht : t.mem headTags = true)
    (hn : t ≠ .k .template) (attrs : List At) : Sat q (Inv q) (inHeadStart t attrs s) := by
  obtain ⟨d, hu, h1 | ⟨sw, h1, h2, h4, h3⟩⟩ := headStart_eq h hr ht hn attrs
  · rw [h1]
    exact ⟨CoreOf.up h hu, (hf.kept h.tops.wf hu.2.2).mfit⟩
  · rw [h3]
    exact ⟨CoreOf.push h hu rfl h1 rfl (Ins.plain h2) (fun hc => absurd hc (plain_tag (e := ⟨0, .html, t, []⟩) ⟨rfl, h2⟩).2.1) h4, _, _, rfl, ⟨rfl, h2⟩, hr.1,
      hf.kept h.tops.wf hu.2.2⟩

theorem rawText_ok (h : Core q s) (hr : Dp s.stack) (hf : Fits s.dom s.mode s.stack s.fmt s.head) {t : Tag} (ht : t.mem structural = false)
    (sw : Sw) (attrs : List At) : Sat q (Inv q) (rawText s sw t attrs) := by
  obtain ⟨d, h1, h2, h3, h4⟩ := insertHtml_ok h hr (Ins.plain ht) attrs
  unfold rawText
  rw [h1]
  exact ⟨h4, _, _, rfl, ⟨rfl, ht⟩, hr.1, hf.kept h.tops.wf h2.2.2⟩

theorem Body.raw (h : Body q z s) {t : Tag} (ht : t.mem structural = false) (sw : Sw) (attrs : List At) : Sat q (Inv q) (rawText s sw t attrs) :=
  rawText_ok h.1 h.dp (h.2.2.fits h.2.1) ht sw attrs

theorem Body.fits (h : Body q z s) : Fits s.dom s.mode s.stack s.fmt s.head := h.2.2.fits h.2.1

theorem head_cases {e : Entry} {l : List Entry} (h : Sh z (e :: l)) : (Plain e ∧ Sh z l) ∨ ∃ k ∈ structural, e.ns = .html ∧ e.tag = .k k := by
  obtain ⟨pre, base, hs, h1, h2⟩ := h
  cases pre with
  | nil =>
    obtain ⟨e', r, ks, hb, h3, h4⟩ := base_head h2
    rw [List.nil_append, hb] at hs
    cases hs
    obtain ⟨h5, k, hk, h6⟩ := h3
    exact .inr ⟨k, h4 k hk, h5, h6⟩
  | cons x pre =>
    cases hs
    exact .inl ⟨h1 _ (by simp), pre, base, rfl, fun y hy => h1 y (by simp [hy]), h2⟩

theorem Body.ddLoop (h : Body q z s) : ∀ (l a : List Entry), s.stack = a ++ l → (∀ y ∈ a, Plain y ∧ y.is .dd = false ∧ y.is .dt = false) → Sh z l →
    Sat q (Body q z) (ddLoop s l)
  | [], a, _, _, hl => absurd rfl hl.rooted.ne
  | e :: l, a, hs, ha, hl => by
    unfold Verif.Model.HtmlTree.ddLoop
    have hit : ∀ k, k ∉ structural → (∀ y ∈ a, y.is k = false) → e.is k = true → Sh z l → Hit (·.is k) z s.stack := by
      intro k hk hy hek hzl
      exact ⟨a, e, l, hs, fun y hy' => ⟨hy y hy', (ha y hy').1⟩, hek, plain_of (is_tag hek).1 (is_tag hek).2 hk, hzl⟩
    have tl : ∀ k, k ∉ structural → e.is k = true → Sh z l := fun k hk hek => hl.tail (plain_of (is_tag hek).1 (is_tag hek).2 hk)
    refine Sat.ite (fun he => ?_) fun h1 => Sat.ite (fun he => ?_) fun h2 => Sat.ite (fun he => h) fun h3 => ?_
    · dsimp only
      refine cur_bind (h.implied _).root fun _ _ _ => ?_
      refine h.closeTo (hit .dd (by decide) (fun y hy => (ha y hy).2.1) he (tl .dd (by decide) he)) fun x _ hx _ => .inl ?_
      show x.tag.is .dd = true
      rw [(is_tag hx).2]; rfl
    · dsimp only
      refine cur_bind (h.implied _).root fun _ _ _ => ?_
      refine h.closeTo (hit .dt (by decide) (fun y hy => (ha y hy).2.2) he (tl .dt (by decide) he)) fun x _ hx _ => .inl ?_
      show x.tag.is .dt = true
      rw [(is_tag hx).2]; rfl
    · rcases head_cases hl with ⟨hp, hl'⟩ | ⟨k, hk, hn, ht⟩
      · refine h.ddLoop l (a ++ [e]) (by rw [hs]; simp) ?_ hl'
        intro y hy
        rcases List.mem_append.mp hy with hy | hy
        · exact ha y hy
        · cases List.mem_singleton.mp hy
          exact ⟨hp, by simpa using h1, by simpa using h2⟩
      · exfalso
        apply h3
        rw [special_k hn ht, isIn_k hn ht]
        have : ∀ k ∈ structural, (specials.contains k && ![K.address, .div, .p].contains k) = true := by decide
        exact this k hk

/-- The names at the head of a zone. -/
def Zone.heads : Zone → List K
  | .body => [.body]
  | .table => [.table]
  | .sec => [.tbody, .tfoot, .thead]
  | .row => [.tr]
  | .cell => [.td, .th]
  | .caption => [.caption]
  | .group => [.colgroup]

theorem base_heads {e : Entry} {l : List Entry} (h : Base z (e :: l)) : Nm e z.heads := by
  cases h <;> assumption

theorem head_cases' {e : Entry} {l : List Entry} (h : Sh z (e :: l)) : (Plain e ∧ Sh z l) ∨ Nm e z.heads := by
  obtain ⟨pre, base, hs, h1, h2⟩ := h
  cases pre with
  | nil => rw [List.nil_append] at hs; exact .inr (base_heads (hs ▸ h2))
  | cons x pre =>
    cases hs
    exact .inl ⟨h1 _ (by simp), pre, base, rfl, fun y hy => h1 y (by simp [hy]), h2⟩

theorem heads_special : ∀ z : Zone, ∀ k ∈ z.heads, specials.contains k = true := by
  intro z; cases z <;> decide

theorem Body.otherEnd (h : Body q z s) {t : Tag} (ht : t.mem z.heads = false) : ∀ (l a : List Entry), s.stack = a ++ l → (∀ y ∈ a, Plain y) → Sh z l →
    Sat q (Body q z) (otherEnd s t l)
  | [], a, _, _, hl => absurd rfl hl.rooted.ne
  | e :: l, a, hs, ha, hl => by
    unfold Verif.Model.HtmlTree.otherEnd
    refine Sat.ite (fun he => ?_) fun h1 => Sat.ite (fun _ => h) fun h2 => ?_
    · rcases head_cases' hl with ⟨hp, hl'⟩ | ⟨-, k, hk, hkt⟩
      · dsimp only
        refine cur_bind (h.implied _).root fun _ _ _ => ?_
        have hn := mid_nodup (P := a) (Q := l) (e := e) (by rw [← hs]; exact h.1.nodup)
        refine h.closeTo ⟨a, e, l, hs, fun y hy => ⟨by simpa using hn.1 y hy, ha y hy⟩, by simp, hp, hl'⟩ fun x hx hxe _ => .inl ?_
        rw [show x = e from node_inj h.1.nodup hx (by rw [hs]; simp) (by simpa using hxe)]
        exact he
      · rw [(isTag_eq he).2] at hkt
        exact absurd hkt (ne_of ht hk)
    · rcases head_cases' hl with ⟨hp, hl'⟩ | ⟨hn, k, hk, hkt⟩
      · refine h.otherEnd ht l (a ++ [e]) (by rw [hs]; simp) ?_ hl'
        intro y hy
        rcases List.mem_append.mp hy with hy | hy
        · exact ha y hy
        · cases List.mem_singleton.mp hy
          exact hp
      · exact absurd (by rw [special_k hn hkt]; exact heads_special z k hk) h2

theorem Body.removeNode (h : Body q z s) {n : Nat} (hp : ∀ x ∈ s.stack, x.node = n → Plain x) (hn : hasNode s n = true) :
    Sat q (Body q z) (removeNode s n) := by
  unfold Verif.Model.HtmlTree.removeNode
  rw [if_pos hn]
  refine h.to_sub (List.eraseP_sublist) (h.2.1.erase fun x hx hx' => hp x hx (by simpa using hx'))

end Verif.Proof.HtmlTree.Safe
