import Verif.Proof.HtmlDoc2
/- The state of the tree construction while a document that needs no repair is read. -/
namespace Verif.Proof.HtmlDoc
open Verif.Model.HtmlTree
open Verif.Spec.HtmlTree (data)
open Verif.Spec.HtmlAtom (codes)
open Verif.Spec.HtmlDoc (Where Ctx inside isText)
variable {tbl : List Nat → Bool} {re : Re} {s : S} {c : Ctx}

/-! ### Runs -/

/-- A token of the tokenizer is processed, and the tokenizer is not switched. -/
def Step (tbl : List Nat → Bool) (s : S) (t : Verif.Model.HtmlTok.Tok) (s' : S) : Prop :=
  emit tbl (convert s t) s = .ok s' ∧ s'.switch = none

inductive Run (tbl : List Nat → Bool) : S → List Verif.Model.HtmlTok.Tok → S → Prop
  | nil (x : S) : Run tbl x [] x
  | cons {x y z : S} {t : Verif.Model.HtmlTok.Tok} {l : List Verif.Model.HtmlTok.Tok} : Step tbl x t y → Run tbl y l z →
      Run tbl x (t :: l) z

theorem Run.append {s s1 s2 : S} {l m} (h1 : Run tbl s l s1) (h2 : Run tbl s1 m s2) : Run tbl s (l ++ m) s2 := by
  induction h1 with
  | nil => exact h2
  | cons a _ ih => exact .cons a (ih h2)

theorem Run.one {s s1 : S} {t} (h : Step tbl s t s1) : Run tbl s [t] s1 := .cons h (.nil _)

theorem Run.fold {s s1 : S} {l} (h : Run tbl s l s1) : l.foldl (sink tbl).emit (.ok s) = .ok s1 := by
  induction h with
  | nil => rfl
  | cons a _ ih =>
    rw [List.foldl_cons]
    have : (sink tbl).emit (.ok _) _ = _ := a.1
    rw [this, ih]

theorem Run.calm {s s1 : S} {l} (h : Run tbl s l s1) : Verif.Proof.HtmlRoundTrip.Calm (sink tbl) (.ok s) l := by
  induction h with
  | nil => exact trivial
  | cons a _ ih =>
    have : (sink tbl).emit (.ok _) _ = _ := a.1
    refine ⟨?_, ?_⟩
    · rw [this]
      show Option.map Sw.st _ = none
      rw [a.2]; rfl
    · rw [this]; exact ih

/-! ### The list of formatting elements becomes shorter -/

inductive Fewer : List Fmt → List Fmt → Prop
  | nil : Fewer [] []
  | mark (l) : Fewer (.marker :: l) (.marker :: l)
  | keep (e) {a b} : Fewer a b → Fewer (.el e :: a) (.el e :: b)
  | drop (e) {a b} : Fewer a b → Fewer a (.el e :: b)

theorem Fewer.refl : ∀ l, Fewer l l
  | [] => .nil
  | .marker :: l => .mark l
  | .el e :: l => .keep e (Fewer.refl l)

theorem Fewer.trans {a b d : List Fmt} (h1 : Fewer a b) (h2 : Fewer b d) : Fewer a d := by
  induction h2 generalizing a with
  | nil => exact h1
  | mark l => exact h1
  | keep e h ih =>
    cases h1 with
    | keep _ h1 => exact .keep e (ih h1)
    | drop _ h1 => exact .drop e (ih h1)
  | drop e h ih => exact .drop e (ih h1)

theorem Fewer.mem {a b : List Fmt} (h : Fewer a b) {x : Fmt} (hx : x ∈ a) : x ∈ b := by
  induction h with
  | nil => exact hx
  | mark l => exact hx
  | keep e h ih =>
    rcases List.mem_cons.mp hx with hx | hx
    · simp [hx]
    · simp [ih hx]
  | drop e h ih => simp [ih hx]

theorem Fewer.behind {a b : List Fmt} (h : Fewer a b) {x : Entry} (hx : x ∈ behindMarker a) : x ∈ behindMarker b := by
  induction h with
  | nil => exact hx
  | mark l => exact hx
  | keep e h ih =>
    simp only [behindMarker, List.mem_cons] at hx ⊢
    exact hx.imp id ih
  | drop e h ih => simp [behindMarker, ih hx]

theorem Fewer.marker {a l : List Fmt} (h : Fewer a (.marker :: l)) : a = .marker :: l := by cases h; rfl

theorem fewer_drop {x : Entry} : ∀ {f : List Fmt}, x ∈ behindMarker f → Fewer (dropFmt x.node f) f
  | [], h => by simp [behindMarker] at h
  | .marker :: l, h => by simp [behindMarker] at h
  | .el e :: l, h => by
    simp only [behindMarker, List.mem_cons] at h
    by_cases he : e.node = x.node
    · have : dropFmt x.node (.el e :: l) = l := by simp [dropFmt, he]
      rw [this]; exact .drop e (.refl l)
    · have : dropFmt x.node (.el e :: l) = .el e :: dropFmt x.node l := by simp [dropFmt, he]
      rw [this]
      rcases h with h | h
      · exact absurd (by rw [h]) he
      · exact .keep e (fewer_drop h)

theorem push_fewer (s : S) (e : Entry) : ∃ f, pushFmt s e = { s with fmt := .el e :: f } ∧ Fewer f s.fmt := by
  refine ⟨_, rfl, ?_⟩
  split
  · split
    · rename_i x hx
      exact fewer_drop (List.mem_filter.mp (List.mem_of_getLast? hx)).1
    · exact .refl _
  · exact .refl _

/-! ### What stays -/

/-- The node at the top. -/
def top (s : S) : Nat := (s.stack.head?.map Entry.node).getD 0

/-- All is as before, but for the tree, and some formatting elements that are no longer in the list. -/
structure Rest (s s' : S) : Prop where
  stack : s'.stack = s.stack
  mode : s'.mode = s.mode
  tmpl : s'.tmpl = s.tmpl
  head : s'.head = s.head
  form : s'.form = s.form
  foster : s'.foster = s.foster
  omitLf : s'.omitLf = s.omitLf
  slots : s'.slots = s.slots
  switch : s'.switch = s.switch
  fmt : Fewer s'.fmt s.fmt

theorem Rest.refl (s : S) : Rest s s := ⟨rfl, rfl, rfl, rfl, rfl, rfl, rfl, rfl, rfl, .refl _⟩

theorem Rest.trans {s s1 s2 : S} (a : Rest s s1) (b : Rest s1 s2) : Rest s s2 :=
  ⟨b.stack.trans a.stack, b.mode.trans a.mode, b.tmpl.trans a.tmpl, b.head.trans a.head, b.form.trans a.form, b.foster.trans a.foster,
   b.omitLf.trans a.omitLf, b.slots.trans a.slots, b.switch.trans a.switch, b.fmt.trans a.fmt⟩

/-- The element at the top gets new children, and nothing else changes. -/
structure Frame (s s' : S) (ks : List Tree) : Prop where
  rest : Rest s s'
  dom : Grown s.dom (top s) ks s'.dom

theorem Frame.trans {s s1 s2 : S} {ks ls} (a : Frame s s1 ks) (b : Frame s1 s2 ls) : Frame s s2 (ks ++ ls) := by
  refine ⟨a.rest.trans b.rest, grown_trans a.dom ?_⟩
  have : top s1 = top s := by unfold top; rw [a.rest.stack]
  rw [← this]; exact b.dom

/-! ### The state in a context -/

/-- An end tag `table` is not for an element of the stack. -/
def Stops : List Entry → Prop
  | [] => False
  | e :: l => e.isTag (.k .table) = false ∧ (special e = true ∨ Stops l)

theorem stops_end : ∀ (l : List Entry), Stops l → otherEnd s (.k .table) l = .ok s
  | [], h => h.elim
  | e :: l, h => by
    unfold otherEnd
    rw [h.1]
    simp only [Bool.false_eq_true, if_false]
    split
    · rfl
    · rename_i hs
      exact stops_end l (h.2.resolve_left hs)

/-- The element at the top. -/
def TopIn (l : List K) : List Entry → Prop
  | [] => False
  | e :: _ => e.isIn l = true

def ModeFits : Where → S → Prop
  | .flow, s => Flow s.mode ∧ resetMode s.head s.tmpl s.stack = .ok s.mode ∧ Stops s.stack
  | .table, s => s.mode = .inTable ∧ TopIn [.table] s.stack
  | .group, s => s.mode = .inColumnGroup ∧ TopIn [.colgroup] s.stack
  | .sect, s => s.mode = .inTableBody ∧ TopIn [.tbody, .thead, .tfoot] s.stack
  | .row, s => s.mode = .inRow ∧ TopIn [.tr] s.stack

structure Fit (c : Ctx) (s : S) : Prop where
  still : Still s
  foster : s.foster = false
  slots : s.slots = []
  topp : ∃ e l, s.stack = e :: l ∧ e.tag = Tag.ofName c.parent ∧ e.node ≠ 0
  ents : ∀ e ∈ s.stack, e.ns = .html ∧ e.node < s.dom.length
  fmtOn : ∀ e, Fmt.el e ∈ s.fmt → hasNode s e.node = true
  noTemplate : has s .template = false
  form : c.inForm = false → s.form = none
  mode : ModeFits c.at' s
  p : c.inP = false → inScope buttonScope (·.is .p) s.stack = .ok false
  a : c.at' = .flow → c.inA = false → ∀ e ∈ behindMarker s.fmt, e.tag.is .a = false
  nobr : c.inNobr = false → inScope defaultScope (·.is .nobr) s.stack = .ok false

theorem Fit.rest {s s' : S} (h : Fit c s) (r : Rest s s') (hd : s.dom.length ≤ s'.dom.length) : Fit c s' := by
  refine ⟨⟨r.switch.trans h.still.switch, r.omitLf.trans h.still.omitLf⟩, r.foster.trans h.foster, r.slots.trans h.slots, ?_, ?_, ?_, ?_,
    fun hc => r.form.trans (h.form hc), ?_, ?_, ?_, ?_⟩
  · rw [r.stack]; exact h.topp
  · rw [r.stack]; exact fun e he => ⟨(h.ents e he).1, Nat.lt_of_lt_of_le (h.ents e he).2 hd⟩
  · intro e he
    have := h.fmtOn e (r.fmt.mem he)
    unfold hasNode at this ⊢
    rw [r.stack]; exact this
  · have := h.noTemplate
    unfold has at this ⊢
    rw [r.stack]; exact this
  · have := h.mode
    cases hc : c.at' <;> rw [hc] at this <;> simp only [ModeFits, r.mode, r.head, r.tmpl, r.stack] at this ⊢ <;> exact this
  · rw [r.stack]; exact h.p
  · exact fun h1 h2 e he => h.a h1 h2 e (r.fmt.behind he)
  · rw [r.stack]; exact h.nobr

theorem Fit.frame {s s' : S} {ks} (h : Fit c s) (r : Frame s s' ks) : Fit c s' := h.rest r.rest r.dom.2.1

theorem Fit.top_lt (h : Fit c s) : ∃ e l, s.stack = e :: l ∧ top s = e.node ∧ e.node < s.dom.length ∧ e.node ≠ 0 ∧ e.ns = .html ∧
    e.tag = Tag.ofName c.parent := by
  obtain ⟨e, l, h1, h2, h3⟩ := h.topp
  have := h.ents e (by rw [h1]; simp)
  exact ⟨e, l, h1, by unfold top; rw [h1]; rfl, this.2, h3, this.1, h2⟩

theorem Fit.reopen (h : Fit c s) : reconstruct s = .ok s :=
  reopen_none fun e l hf => h.fmtOn e (by rw [hf]; simp)

theorem Fit.emit (h : Fit c s) (tok : Tok) : ∃ n, emit tbl tok s = byMode tbl (process tbl n) tok s := by
  obtain ⟨e, l, h1, -, -, -, h2, -⟩ := h.top_lt
  exact ⟨_, emit_html h.still h1 h2 tok⟩

/-! ### A new element at the top -/

/-- The entry of a new element. -/
def entry (s : S) (t : Tag) (at' : List At) : Entry := ⟨s.dom.length, .html, t, at'⟩

/-- The tags that `resetMode` looks for. -/
def resetK : List K := [.select, .td, .th, .tr, .tbody, .thead, .tfoot, .caption, .colgroup, .table, .template, .head, .body, .frameset,
  .html]

theorem reset_push {e : Entry} {l : List Entry} {hd : Option Nat} {tm : List Mode} (h : e.tag.mem resetK = false) (hl : l ≠ []) :
    resetMode hd tm (e :: l) = resetMode hd tm l := by
  have m : ∀ (x : List K), (∀ k ∈ x, k ∈ resetK) → e.isIn x = false := fun x hx => by
    unfold Entry.isIn; rw [mem_sub hx h]; simp
  have i : ∀ k ∈ resetK, e.is k = false := fun k hk => by
    unfold Entry.is; rw [is_sub hk h]; simp
  have hb : (l = []) = False := by simp [hl]
  conv_lhs => unfold resetMode
  simp only [m [.td, .th] (by decide), m [.tbody, .thead, .tfoot] (by decide), i .select (by decide), i .tr (by decide),
    i .caption (by decide), i .colgroup (by decide), i .table (by decide), i .template (by decide), i .head (by decide),
    i .body (by decide), i .frameset (by decide), i .html (by decide), Bool.false_and, Bool.false_eq_true, if_false, hb]

theorem fit_push (h : Fit c s) {c' : Ctx} {t : Tag} {at' : List At} {s1 : S} (hst : Still s1) (hfo : s1.foster = false)
    (hsl : s1.slots = []) (hstk : s1.stack = entry s t at' :: s.stack) (hlen : s1.dom.length = s.dom.length + 1)
    (ht : t = Tag.ofName c'.parent) (htm : t.is .template = false)
    (hfm : ∀ e, Fmt.el e ∈ s1.fmt → e.node = s.dom.length ∨ Fmt.el e ∈ s.fmt)
    (hform : c'.inForm = false → s1.form = none) (hmode : ModeFits c'.at' s1)
    (hp : c'.inP = false → t.is .p = false ∧ (buttonScope (entry s t at') = true ∨ c.inP = false))
    (ha : c'.at' = .flow → c'.inA = false → ∀ e ∈ behindMarker s1.fmt, e.tag.is .a = false)
    (hn : c'.inNobr = false → t.is .nobr = false ∧ (defaultScope (entry s t at') = true ∨ c.inNobr = false)) : Fit c' s1 := by
  obtain ⟨e, l, h1, h2, h3, h4, h5, h6⟩ := h.top_lt
  refine ⟨hst, hfo, hsl, ⟨_, _, hstk, ht, ?_⟩, ?_, ?_, ?_, hform, hmode, ?_, ha, ?_⟩
  · show s.dom.length ≠ 0
    omega
  · rw [hstk, hlen]
    intro x hx
    rcases List.mem_cons.mp hx with rfl | hx
    · exact ⟨rfl, Nat.lt_succ_self _⟩
    · have := h.ents x hx
      exact ⟨this.1, by omega⟩
  · intro x hx
    unfold hasNode
    rw [hstk, List.any_cons]
    rcases hfm x hx with hx | hx
    · simp [entry, hx]
    · have := h.fmtOn x hx
      unfold hasNode at this
      rw [this]; simp
  · have := h.noTemplate
    unfold has at this ⊢
    rw [hstk, List.any_cons, this]
    simp [entry, Entry.is, htm]
  · intro hc
    obtain ⟨a, b⟩ := hp hc
    rw [hstk]
    unfold inScope
    have : (entry s t at').is .p = false := by simp [entry, Entry.is, a]
    rw [this]
    simp only [Bool.false_eq_true, if_false]
    split
    · rfl
    · rename_i hb
      exact h.p (b.resolve_left hb)
  · intro hc
    obtain ⟨a, b⟩ := hn hc
    rw [hstk]
    unfold inScope
    have : (entry s t at').is .nobr = false := by simp [entry, Entry.is, a]
    rw [this]
    simp only [Bool.false_eq_true, if_false]
    split
    · rfl
    · rename_i hb
      exact h.nobr (b.resolve_left hb)

/-! ### Texts -/

theorem data_text {k : Kind} {t : List Nat} (h : data k = .text t) : k = .text t := by
  cases k <;> simp [data] at h
  rw [h]

/-- Behind a node that is no text. -/
theorem grown_noText {d d' : Dom} {n : Nat} {ks : List Tree} {T : Tree} (h : Grown d n (ks ++ [T]) d') (hT : isText T.data = false) :
    NoText d' n := by
  obtain ⟨h1, h2, h3, xs, h4, h5, h6⟩ := h
  intro x hx t hk
  obtain ⟨nd, hnd⟩ := Option.ne_none_iff_exists'.mp (show d[n]? ≠ none by simp; omega)
  have last : ∀ (ks : List Tree) (xs : List Nat), IsAll d' n xs (ks ++ [T]) → ∃ ys y, xs = ys ++ [y] ∧ Is d' y T := by
    intro ks
    induction ks with
    | nil =>
      intro xs h
      match xs, h with
      | [], h => unfold IsAll at h; exact h.elim
      | [y], h => rw [List.nil_append, isAll_cons] at h; exact ⟨[], y, rfl, h.2.1⟩
      | _ :: _ :: _, h => rw [List.nil_append, isAll_cons] at h; have := h.2.2; unfold IsAll at this; exact this.elim
    | cons k ks ih =>
      intro xs h
      match xs, h with
      | [], h => rw [List.cons_append] at h; unfold IsAll at h; exact h.elim
      | y :: xs, h =>
        rw [List.cons_append, isAll_cons] at h
        obtain ⟨ys, z, a, b⟩ := ih xs h.2.2
        exact ⟨y :: ys, z, by rw [a]; rfl, b⟩
  obtain ⟨ys, y, rfl, hy⟩ := last ks xs h6
  rw [hnd] at h5
  have : x = y := by
    simp only [kidsOf, h5, Option.map_some, Option.getD_some] at hx
    rw [← List.append_assoc, List.getLast?_append] at hx
    simpa using hx.symm
  subst this
  cases T with
  | mk dt ks' =>
    unfold Is at hy
    rw [hk] at hy
    have := hy.1
    simp [data] at this
    rw [← this] at hT
    simp [isText, Verif.Spec.HtmlSerial.Dom.data] at hT

/-- The text that has just been put. -/
theorem grown_text {d d' : Dom} {n : Nat} {t : List Nat} (h : Grown d n [.mk (.text t) []] d') :
    ∃ x, x ≠ n ∧ (kidsOf d' n).getLast? = some x ∧ kindOf d' x = some (.text t) := by
  obtain ⟨h1, h2, h3, xs, h4, h5, h6⟩ := h
  obtain ⟨nd, hnd⟩ := Option.ne_none_iff_exists'.mp (show d[n]? ≠ none by simp; omega)
  match xs, h6 with
  | [], h => unfold IsAll at h; exact h.elim
  | [y], h =>
    rw [isAll_cons] at h
    refine ⟨y, by omega, ?_, ?_⟩
    · rw [hnd] at h5
      simp [kidsOf, h5, List.getLast?_append]
    · have := h.2.1
      unfold Is at this
      cases hk : kindOf d' y with
      | none => rw [hk] at this; cases this.1
      | some k =>
        rw [hk] at this
        rw [data_text (Option.some.inj this.1)]
  | _ :: _ :: _, h => rw [isAll_cons] at h; have := h.2.2; unfold IsAll at this; exact this.elim

theorem grown_new {d d' : Dom} {n : Nat} {k : Kind} (h : New d n k d') : Grown d n [.mk (data k) []] d' :=
  grown_leaf h.lt h.len h.old h.kids h.new

/-- The first character of a text. -/
theorem char_first (hF : Fit c s) (hc : c.at' = .flow) {ch : Nat} (h0 : ch ≠ 0) (ht : NoText s.dom (top s)) :
    ∃ s1, Step tbl s (.char ch) s1 ∧ Frame s s1 [.mk (.text [ch]) []] := by
  obtain ⟨e, l, h1, h2, h3, h4, h5, h6⟩ := hF.top_lt
  obtain ⟨n, hn⟩ := hF.emit (tbl := tbl) (.char ch)
  have hm : Flow s.mode := by have := hF.mode; rw [hc] at this; exact this.1
  rw [h2] at ht
  obtain ⟨d', a1, a2⟩ := char_new h1 hF.foster h3 h4 ht ch
  refine ⟨{ s with dom := d', framesetOk := if ws ch then s.framesetOk else false }, ⟨?_, hF.still.switch⟩, ⟨?_, ?_⟩⟩
  · show emit tbl (.char ch) s = _
    rw [hn, flow_char hm]
    unfold onInBody
    simp only [h0, if_false, hF.reopen, bind, Except.bind, a1]
    split <;> simp [*]
  · exact ⟨rfl, rfl, rfl, rfl, rfl, rfl, rfl, rfl, rfl, .refl _⟩
  · rw [h2]; exact grown_new a2

/-- The next characters. -/
theorem char_next (hF : Fit c s) (hc : c.at' = .flow) {s1 : S} {t : List Nat} (hfr : Frame s s1 [.mk (.text t) []]) {ch : Nat}
    (h0 : ch ≠ 0) : ∃ s2, Step tbl s1 (.char ch) s2 ∧ Frame s s2 [.mk (.text (t ++ [ch])) []] := by
  have hF1 := hF.frame hfr
  obtain ⟨e, l, h1, h2, h3, h4, h5, h6⟩ := hF1.top_lt
  obtain ⟨n, hn⟩ := hF1.emit (tbl := tbl) (.char ch)
  have hm : Flow s1.mode := by have := hF1.mode; rw [hc] at this; exact this.1
  have htop : top s = e.node := by rw [← h2]; unfold top; rw [hfr.rest.stack]
  have hg := hfr.dom
  rw [htop] at hg
  obtain ⟨x, x1, x2, x3⟩ := grown_text hg
  refine ⟨{ s1 with
    dom := s1.dom.modify x fun n => { n with kind := .text (t ++ [ch]) }
    framesetOk := if ws ch then s1.framesetOk else false }, ⟨?_, hF1.still.switch⟩, ⟨?_, ?_⟩⟩
  · show emit tbl (.char ch) s1 = _
    rw [hn, flow_char hm]
    unfold onInBody
    simp only [h0, if_false, hF1.reopen, bind, Except.bind, char_more h1 hF1.foster h4 x2 x3 ch]
    split <;> simp [*]
  · exact hfr.rest.trans ⟨rfl, rfl, rfl, rfl, rfl, rfl, rfl, rfl, rfl, .refl _⟩
  · rw [htop]; exact grown_more ch x1 hg x2 x3

theorem chars_run (hF : Fit c s) (hc : c.at' = .flow) : ∀ (l t : List Nat) {s1 : S}, Frame s s1 [.mk (.text t) []] → 0 ∉ l →
    ∃ s2, Run tbl s1 (l.map .char) s2 ∧ Frame s s2 [.mk (.text (t ++ l)) []]
  | [], t, s1, h, _ => ⟨s1, .nil _, by simpa using h⟩
  | ch :: l, t, s1, h, h0 => by
    obtain ⟨s2, a, b⟩ := char_next (tbl := tbl) hF hc h (ch := ch) (fun h => h0 (by simp [h]))
    obtain ⟨s3, a', b'⟩ := chars_run hF hc l (t ++ [ch]) b (fun h => h0 (by simp [h]))
    exact ⟨s3, .cons a a', by simpa using b'⟩

theorem text_run (hF : Fit c s) (hc : c.at' = .flow) {l : List Nat} (hl : l ≠ []) (h0 : 0 ∉ l) (ht : NoText s.dom (top s)) :
    ∃ s1, Run tbl s (l.map .char) s1 ∧ Frame s s1 [.mk (.text l) []] := by
  cases l with
  | nil => exact absurd rfl hl
  | cons ch l =>
    obtain ⟨s1, a, b⟩ := char_first (tbl := tbl) hF hc (ch := ch) (fun h => h0 (by simp [h])) ht
    obtain ⟨s2, a', b'⟩ := chars_run (tbl := tbl) hF hc l [ch] b (fun h => h0 (by simp [h]))
    exact ⟨s2, .cons a a', by simpa using b'⟩

/-! ### Comments -/

theorem comment_run (hF : Fit c s) (t : List Nat) : ∃ s1, Run tbl s [.comment t] s1 ∧ Frame s s1 [.mk (.comment t) []] := by
  obtain ⟨e, l, h1, h2, h3, h4, h5, h6⟩ := hF.top_lt
  obtain ⟨n, hn⟩ := hF.emit (tbl := tbl) (.comment t)
  obtain ⟨d', a1, a2⟩ := comment_eq h1 hF.foster h3 t
  refine ⟨{ s with dom := d' }, .one ⟨?_, hF.still.switch⟩, ⟨⟨rfl, rfl, rfl, rfl, rfl, rfl, rfl, rfl, rfl, .refl _⟩, ?_⟩⟩
  · show emit tbl (.comment t) s = _
    rw [hn, ← a1]
    have hm := hF.mode
    cases hc : c.at' <;> rw [hc] at hm
    · rw [flow_comment hm.1]; rfl
    all_goals (have hm := hm.1; simp only [byMode, hm]; rfl)
  · rw [h2]; exact grown_new a2

end Verif.Proof.HtmlDoc
