import Verif.Proof.HtmlDoc7
/- The frame of a document: the document type, `html`, `head` and `body`. -/
namespace Verif.Proof.HtmlDoc
open Verif.Model.HtmlTree
open Verif.Spec.HtmlTree (data attr document)
open Verif.Spec.HtmlAtom (codes)
open Verif.Spec.HtmlSerial (Attr htmlNs voidNames rawNames Dom.data)
open Verif.Spec.HtmlRoundTrip (tokens tokensAll Plain PlainAll PlainAttr)
open Verif.Spec.HtmlDoc
variable {tbl : List Nat → Bool} {s : S} {name : List Nat} {at' : List At} {attrs : List Attr}

theorem tokensAll_append : ∀ (a b : List Tree), tokensAll (a ++ b) = tokensAll a ++ tokensAll b
  | [], _ => by rw [List.nil_append, show tokensAll [] = [] by unfold tokensAll; rfl, List.nil_append]
  | x :: a, b => by
    rw [List.cons_append, show ∀ y l, tokensAll (y :: l) = tokens y ++ tokensAll l by intro y l; conv_lhs => unfold tokensAll,
      show ∀ y l, tokensAll (y :: l) = tokens y ++ tokensAll l by intro y l; conv_lhs => unfold tokensAll, tokensAll_append a b,
      List.append_assoc]

theorem plainAll_append : ∀ {a b : List Tree}, PlainAll a → PlainAll b → PlainAll (a ++ b)
  | [], _, _, h => h
  | x :: a, b, h, h' => by
    unfold PlainAll at h
    rw [List.cons_append]
    unfold PlainAll
    exact ⟨h.1, plainAll_append h.2 h'⟩

/-! ### In the head -/

structure InHead (s : S) : Prop where
  still : Still s
  foster : s.foster = false
  slots : s.slots = []
  mode : s.mode = .inHead
  topp : ∃ e l, s.stack = e :: l ∧ e.ns = .html ∧ e.node < s.dom.length ∧ e.node ≠ 0

theorem InHead.frame {s s' : S} {ks} (h : InHead s) (r : Frame s s' ks) : InHead s' := by
  obtain ⟨e, l, h1, h2, h3, h4⟩ := h.topp
  exact ⟨⟨r.rest.switch.trans h.still.switch, r.rest.omitLf.trans h.still.omitLf⟩, r.rest.foster.trans h.foster,
    r.rest.slots.trans h.slots, r.rest.mode.trans h.mode,
    ⟨e, l, r.rest.stack.trans h1, h2, Nat.lt_of_lt_of_le h3 r.dom.2.1, h4⟩⟩

theorem InHead.emit (h : InHead s) (tok : Tok) : ∃ n, emit tbl tok s = onInHead (process tbl n) tok s := by
  obtain ⟨e, l, h1, h2, -⟩ := h.topp
  exact ⟨_, by rw [emit_html h.still h1 h2 tok]; simp only [byMode, h.mode]; rfl⟩

theorem ws_of {ch : Nat} (h : ch ∈ [0x9, 0xA, 0xC, 0x20]) : ws ch = true := by
  revert ch; decide

theorem hchar_first (hF : InHead s) {ch : Nat} (hw : ws ch = true) (ht : NoText s.dom (top s)) :
    ∃ s1, Step tbl s (.char ch) s1 ∧ Frame s s1 [.mk (.text [ch]) []] := by
  obtain ⟨e, l, h1, h2, h3, h4⟩ := hF.topp
  obtain ⟨n, hn⟩ := hF.emit (tbl := tbl) (.char ch)
  have htop : top s = e.node := by unfold top; rw [h1]; rfl
  rw [htop] at ht
  obtain ⟨d', a1, a2⟩ := char_new h1 hF.foster h3 h4 ht ch
  refine ⟨{ s with dom := d' }, ⟨?_, hF.still.switch⟩, ⟨⟨rfl, rfl, rfl, rfl, rfl, rfl, rfl, rfl, rfl, .refl _⟩, ?_⟩⟩
  · show Verif.Model.HtmlTree.emit tbl (.char ch) s = _
    rw [hn, ← a1]
    unfold onInHead
    simp only [hw, if_true]
  · rw [htop]; exact grown_new a2

theorem hchar_next (hF : InHead s) {s1 : S} {t : List Nat} (hfr : Frame s s1 [.mk (.text t) []]) {ch : Nat} (hw : ws ch = true) :
    ∃ s2, Step tbl s1 (.char ch) s2 ∧ Frame s s2 [.mk (.text (t ++ [ch])) []] := by
  have hF1 := hF.frame hfr
  obtain ⟨e, l, h1, h2, h3, h4⟩ := hF1.topp
  obtain ⟨n, hn⟩ := hF1.emit (tbl := tbl) (.char ch)
  have htop : top s = e.node := by unfold top; rw [← hfr.rest.stack, h1]; rfl
  have hg := hfr.dom
  rw [htop] at hg
  obtain ⟨x, x1, x2, x3⟩ := grown_text hg
  refine ⟨{ s1 with dom := s1.dom.modify x fun n => { n with kind := .text (t ++ [ch]) } }, ⟨?_, hF1.still.switch⟩,
    ⟨hfr.rest.trans ⟨rfl, rfl, rfl, rfl, rfl, rfl, rfl, rfl, rfl, .refl _⟩, ?_⟩⟩
  · show Verif.Model.HtmlTree.emit tbl (.char ch) s1 = _
    rw [hn, ← char_more h1 hF1.foster h4 x2 x3 ch]
    unfold onInHead
    simp only [hw, if_true]
  · rw [htop]; exact grown_more ch x1 hg x2 x3

theorem hchars_run (hF : InHead s) : ∀ (l t : List Nat) {s1 : S}, Frame s s1 [.mk (.text t) []] → (∀ ch ∈ l, ws ch = true) →
    ∃ s2, Run tbl s1 (l.map .char) s2 ∧ Frame s s2 [.mk (.text (t ++ l)) []]
  | [], t, s1, h, _ => ⟨s1, .nil _, by simpa using h⟩
  | ch :: l, t, s1, h, h0 => by
    obtain ⟨s2, a, b⟩ := hchar_next (tbl := tbl) hF h (ch := ch) (h0 ch (by simp))
    obtain ⟨s3, a', b'⟩ := hchars_run hF l (t ++ [ch]) b (fun x hx => h0 x (by simp [hx]))
    exact ⟨s3, .cons a a', by simpa using b'⟩

theorem head_run : ∀ (D : Tree) {s : S}, HeadFits D → InHead s → (isText D.data = true → NoText s.dom (top s)) →
    ∃ s', Run tbl s (tokens D) s' ∧ Frame s s' [D]
  | .mk (.element ns pre name attrs) ks, s, h, hF, _ => by
    unfold HeadFits at h
    obtain ⟨rfl, rfl, hn, ha, rfl⟩ := h
    obtain ⟨e, l, h1, h2, h3, h4⟩ := hF.topp
    obtain ⟨n, hem⟩ := hF.emit (tbl := tbl) (.start (Tag.ofName name) (given attrs) false)
    have htop : top s = e.node := by unfold top; rw [h1]; rfl
    obtain ⟨d', a1, a2⟩ := insertPop_eq h1 hF.foster h3 (Tag.ofName name) (given attrs)
    refine ⟨{ s with dom := d' }, ?_, ⟨⟨rfl, rfl, rfl, rfl, rfl, rfl, rfl, rfl, rfl, .refl _⟩, ?_⟩⟩
    · unfold tokens
      rw [if_pos ((by decide +kernel : ∀ n ∈ headVoids, n ∈ voidNames) name hn)]
      refine .one (step_start hF.slots ?_ hF.still.switch)
      rw [hem, ← a1]
      obtain ⟨k, hk, he⟩ := mem_tags (l := [.base, .basefont, .bgsound, .link, .metaEl]) (by decide +kernel) hn
      rw [he]
      unfold onInHead inHeadStart
      have := (by decide : ∀ k ∈ [K.base, .basefont, .bgsound, .link, .metaEl], (Tag.k k).is .html = false ∧ (Tag.k k).mem headTags = true ∧
        (Tag.k k).mem [.base, .basefont, .bgsound, .link, .metaEl] = true) k hk
      simp only [this, Bool.false_eq_true, if_false, if_true]
    · rw [htop, ← elem_data ha]
      exact grown_new a2
  | .mk (.text t) ks, s, h, hF, ht => by
    unfold HeadFits at h
    obtain ⟨h1, h2, rfl⟩ := h
    unfold tokens
    cases t with
    | nil => exact absurd rfl h1
    | cons ch l =>
      obtain ⟨s1, a, b⟩ := hchar_first (tbl := tbl) hF (ch := ch) (ws_of (h2 ch (by simp))) (ht rfl)
      obtain ⟨s2, a', b'⟩ := hchars_run (tbl := tbl) hF l [ch] b (fun x hx => ws_of (h2 x (by simp [hx])))
      exact ⟨s2, .cons a a', by simpa using b'⟩
  | .mk (.comment t) ks, s, h, hF, _ => by
    unfold HeadFits at h
    obtain ⟨hp, rfl⟩ := h
    unfold tokens
    obtain ⟨e, l, h1, h2, h3, h4⟩ := hF.topp
    obtain ⟨n, hn⟩ := hF.emit (tbl := tbl) (.comment t)
    have htop : top s = e.node := by unfold top; rw [h1]; rfl
    obtain ⟨d', a1, a2⟩ := comment_eq h1 hF.foster h3 t
    refine ⟨{ s with dom := d' }, .one ⟨?_, hF.still.switch⟩, ⟨⟨rfl, rfl, rfl, rfl, rfl, rfl, rfl, rfl, rfl, .refl _⟩, ?_⟩⟩
    · show Verif.Model.HtmlTree.emit tbl (.comment t) s = _
      rw [hn, ← a1]; rfl
    · rw [htop]; exact grown_new a2
  | .mk (.doctype _) _, _, h, _, _ => by unfold HeadFits at h; exact h.elim
  | .mk (.pi _ _) _, _, h, _, _ => by unfold HeadFits at h; exact h.elim
  | .mk .other _, _, h, _, _ => by unfold HeadFits at h; exact h.elim

theorem headAll_run : ∀ (ks : List Tree) {s : S} {t : Bool}, HeadFitsAll t ks → InHead s → (t = false → NoText s.dom (top s)) →
    ∃ s', Run tbl s (tokensAll ks) s' ∧ Frame s s' ks
  | [], s, t, h, hF, ht => by
    unfold tokensAll
    obtain ⟨e, l, h1, h2, h3, h4⟩ := hF.topp
    exact ⟨s, .nil _, .refl _, grown_refl (by unfold top; rw [h1]; exact h3)⟩
  | D :: r, s, t, h, hF, ht => by
    unfold HeadFitsAll at h
    obtain ⟨h1, h2, h3⟩ := h
    obtain ⟨s1, a1, a2⟩ := head_run (tbl := tbl) D h1 hF fun hd => ht (by
      cases t
      · rfl
      · exact absurd ⟨rfl, hd⟩ h2)
    obtain ⟨s2, b1, b2⟩ := headAll_run r h3 (hF.frame a2) fun hd => by
      have : top s1 = top s := by unfold top; rw [a2.rest.stack]
      rw [this]
      exact grown_noText (ks := []) a2.dom hd
    unfold tokensAll
    exact ⟨s2, a1.append b1, a2.trans b2⟩

theorem headAll_plain : ∀ (ks : List Tree) {t : Bool}, HeadFitsAll t ks → PlainAll ks
  | [], _, _ => by unfold PlainAll; trivial
  | D :: r, _, h => by
    unfold HeadFitsAll at h
    unfold PlainAll
    refine ⟨?_, headAll_plain r h.2.2⟩
    have h := h.1
    match D, h with
    | .mk (.element ns pre name attrs) ks, h =>
      unfold HeadFits at h
      obtain ⟨rfl, rfl, hn, ha, rfl⟩ := h
      unfold Plain
      have := (by decide +kernel : ∀ n ∈ headVoids, n ∉ rawNames ∧ ∀ c ∈ n, Verif.Spec.HtmlRoundTrip.NameChar c) name hn
      refine ⟨rfl, ⟨?_, this.2⟩, this.1, fun a h => (ha.1 a h).1, ha.2, fun _ => rfl, by unfold PlainAll; trivial⟩
      unfold headVoids at hn
      simp only [List.map_cons, List.map_nil, List.mem_cons, List.not_mem_nil, or_false] at hn
      rcases hn with rfl | rfl | rfl | rfl | rfl <;> exact ⟨_, _, rfl, by decide, by decide⟩
    | .mk (.text t) ks, h =>
      unfold HeadFits at h
      unfold Plain
      exact fun hc => absurd (h.2.1 _ hc) (by decide)
    | .mk (.comment t) ks, h => unfold HeadFits at h; unfold Plain; exact h.1
    | .mk (.doctype _) _, h => unfold HeadFits at h; exact h.elim
    | .mk (.pi _ _) _, h => unfold HeadFits at h; exact h.elim
    | .mk .other _, h => unfold HeadFits at h; exact h.elim

/-! ### The whole -/

theorem emit_empty (h : Still s) (hs : s.stack = []) (hf : s.fmt = []) (tok : Tok) :
    emit tbl tok s = byMode tbl (process tbl 63) tok s := by
  have e1 : ({ s with switch := none } : S) = s := by rw [← h.switch]
  have e2 : ({ s with omitLf := false } : S) = s := by rw [← h.omitLf]
  unfold emit
  rw [e1, show bound s = 64 by unfold bound; rw [hs, hf]; rfl]
  unfold process
  rw [h.omitLf]
  simp only [Bool.false_and, Bool.false_eq_true, if_false]
  rw [e2]
  unfold step
  rw [hs]

/-- The state behind the document type and the start tag `html`. -/
def rootS (d : Dom) (q : DocMode) (n : Nat) (at' : List At) : S :=
  { init with dom := d, doc := q, stack := [⟨n, .html, .k .html, at'⟩], mode := .beforeHead }

theorem root_of (d0 : Dom) (h0 : 0 < d0.length) (q : DocMode) (re : Re) (at' : List At) :
    ∃ d1, onBeforeHtml re (.start (.k .html) at' false) { init with dom := d0, doc := q, mode := .beforeHtml } =
      .ok (rootS d1 q d0.length at') ∧ New d0 0 (.elem .html (.k .html) at') d1 := by
  obtain ⟨d1, h1, h2, h3, h4, h5⟩ := link_new d0 0 (.elem .html (.k .html) at') h0
  refine ⟨d1, ?_, ⟨h0, h2, h3, h4, h5⟩⟩
  show insertRoot _ _ = _
  unfold insertRoot create
  simp only [h1, bind, Except.bind]
  rfl

theorem tag_html : Tag.ofName (codes "html") = .k .html := by decide +kernel
theorem tag_head : Tag.ofName (codes "head") = .k .head := by decide +kernel
theorem tag_body : Tag.ofName (codes "body") = .k .body := by decide +kernel

theorem root_run (dt : List Tree) (hdt : dt = [] ∨ ∃ name, dt = [.mk (.doctype name) []]) (ha : List Attr) :
    ∃ d0 d1 q, Run tbl init (tokensAll dt ++ [.startTag (codes "html") (ha.map fun a => (a.name, a.val)) false])
        (rootS d1 q d0.length (given ha)) ∧
      Grown init.dom 0 dt d0 ∧ New d0 0 (.elem .html (.k .html) (given ha)) d1 := by
  rcases hdt with rfl | ⟨name, rfl⟩
  · obtain ⟨d1, h1, h2⟩ := root_of init.dom (by decide) .quirks (process tbl 62) (given ha)
    refine ⟨init.dom, d1, .quirks, ?_, grown_refl (by decide), h2⟩
    unfold tokensAll
    refine .one (step_start rfl ?_ rfl)
    rw [emit_empty ⟨rfl, rfl⟩ rfl rfl, tag_html, ← h1]
    rfl
  · obtain ⟨d0, a1, a2, a3, a4, a5⟩ := link_new init.dom 0 (.doctype name [] []) (by decide)
    have ht : tokensAll [Spec.HtmlSerial.Dom.mk (.doctype name) []] = [.doctype ⟨name, [], [], false⟩] := by
      unfold tokensAll tokens tokensAll; rfl
    let q : DocMode := if quirksCond tbl ⟨name, [], [], false⟩ then .quirks else if limitedCond ⟨name, [], [], false⟩ then .limited else .noQuirks
    obtain ⟨d1, h1, h2⟩ := root_of d0 (by rw [a2]; omega) q (process tbl 63) (given ha)
    refine ⟨d0, d1, q, ?_, grown_leaf (k := .doctype name [] []) (by decide) a2 a3 a4 a5, h2⟩
    rw [ht]
    refine .cons (y := { init with dom := d0, doc := q, mode := .beforeHtml }) ⟨?_, rfl⟩ (.one (step_start rfl ?_ rfl))
    · show Verif.Model.HtmlTree.emit tbl (.doctype ⟨name, [], [], false⟩) init = _
      rw [emit_empty ⟨rfl, rfl⟩ rfl rfl]
      show (do
        let dom ← link (init.dom ++ [⟨.doctype name [] [], none, []⟩]) (.last 0) init.dom.length
        .ok { init with dom := dom, doc := q, mode := .beforeHtml } : R S) = _
      rw [a1]; rfl
    · rw [emit_empty ⟨rfl, rfl⟩ rfl rfl, tag_html, ← h1]
      rfl

theorem fewer_nil {f : List Fmt} (h : Fewer f []) : f = [] := by cases h; rfl

/-- From the start tag `html` to the end of the head. -/
theorem head_stage (d1 : Dom) (q : DocMode) (n : Nat) (hn : n < d1.length) (aH : List At) (hda : List Attr) (hk : List Tree)
    (h2 : Attrs hda) (hh : HeadFitsAll false hk) :
    ∃ s4, Run tbl (rootS d1 q n aH) (tokens (el "head" hda hk)) s4 ∧ Grown d1 n [el "head" hda hk] s4.dom ∧
      Still s4 ∧ s4.foster = false ∧ s4.slots = [] ∧ s4.fmt = [] ∧ s4.form = none ∧ s4.mode = .afterHead ∧
      s4.stack = [⟨n, .html, .k .html, aH⟩] := by
  obtain ⟨d2, e2, n2⟩ := insert_eq (s := rootS d1 q n aH) rfl rfl hn (.k .head) (given hda)
  have hl2 : d2.length = d1.length + 1 := n2.len
  have r2 : Step tbl (rootS d1 q n aH) (.startTag (codes "head") (hda.map fun a => (a.name, a.val)) false)
      { rootS d1 q n aH with
        dom := d2, stack := [⟨d1.length, .html, .k .head, given hda⟩, ⟨n, .html, .k .html, aH⟩], head := some d1.length, mode := .inHead } := by
    refine step_start rfl ?_ rfl
    rw [emit_html ⟨rfl, rfl⟩ rfl rfl, tag_head]
    show insertHead _ _ = _
    unfold insertHead
    rw [e2]; rfl
  have hd2 : InHead { rootS d1 q n aH with
        dom := d2, stack := [⟨d1.length, .html, .k .head, given hda⟩, ⟨n, .html, .k .html, aH⟩], head := some d1.length, mode := .inHead } :=
    ⟨⟨rfl, rfl⟩, rfl, rfl, rfl, ⟨_, _, rfl, rfl, show d1.length < d2.length by omega, show d1.length ≠ 0 by omega⟩⟩
  obtain ⟨s3, r3, f3⟩ := headAll_run (tbl := tbl) hk hh hd2 (fun _ => new_noText n2)
  have g3 : Grown d2 d1.length hk s3.dom := f3.dom
  have hd3 := hd2.frame f3
  have st3 : s3.stack = [⟨d1.length, .html, .k .head, given hda⟩, ⟨n, .html, .k .html, aH⟩] := f3.rest.stack
  have fm3 : s3.fmt = [] := fewer_nil f3.rest.fmt
  have r4 : Step tbl s3 (.endTag (codes "head") [] false) { s3 with stack := [⟨n, .html, .k .html, aH⟩], mode := .afterHead } := by
    refine ⟨?_, hd3.still.switch⟩
    show emit tbl (.fin (Tag.ofName (codes "head"))) s3 = _
    obtain ⟨n, hn⟩ := hd3.emit (tbl := tbl) (.fin (Tag.ofName (codes "head")))
    rw [hn, tag_head]
    show (do
      assertCur s3 .head
      let s ← pop s3
      .ok (s.to .afterHead) : R S) = _
    have : assertCur s3 .head = .ok () := by unfold assertCur; simp only [cur, st3, bind, Except.bind]; rfl
    rw [this]
    simp only [bind, Except.bind, pop, st3]
    rfl
  refine ⟨{ s3 with stack := [⟨n, .html, .k .html, aH⟩], mode := .afterHead }, ?_, ?_, ⟨hd3.still.switch, hd3.still.omitLf⟩, hd3.foster, hd3.slots, fm3, f3.rest.form, rfl, rfl⟩
  · unfold el tokens
    rw [if_neg (by decide +kernel)]
    exact .cons r2 (r3.append (.one r4))
  · have := grown_node n2.lt n2.len n2.old n2.kids n2.new g3
    rw [← tag_head, elem_data h2] at this
    exact this

theorem fit_body {n m : Nat} {aB aH : List At} (hst : Still s) (hfo : s.foster = false) (hsl : s.slots = [])
    (hstk : s.stack = [⟨n, .html, .k .body, aB⟩, ⟨m, .html, .k .html, aH⟩]) (h0 : n ≠ 0) (hn : n < s.dom.length) (hm : m < s.dom.length)
    (hf : s.fmt = []) (hform : s.form = none) (hmode : s.mode = .inBody) : Fit bodyCtx s := by
  refine ⟨hst, hfo, hsl, ⟨_, _, hstk, tag_body.symm, h0⟩, ?_, ?_, ?_, fun _ => hform, ⟨.inl hmode, ?_, ?_⟩, ?_, ?_, ?_⟩
  · rw [hstk]
    intro e he
    rcases List.mem_cons.mp he with rfl | he
    · exact ⟨rfl, hn⟩
    · rw [List.mem_singleton.mp he]; exact ⟨rfl, hm⟩
  · intro e he
    rw [hf] at he
    cases he
  · unfold has; rw [hstk]; rfl
  · rw [hstk, hmode]; rfl
  · rw [hstk]; exact ⟨rfl, .inl rfl⟩
  · rw [hstk]; exact fun _ => rfl
  · intro _ _ e he
    rw [hf] at he
    cases he
  · rw [hstk]; exact fun _ => rfl

/-- From the end of the head to the end. -/
theorem body_stage {s4 : S} {n : Nat} {aH : List At} (h0 : n < s4.dom.length) (hst : Still s4) (hfo : s4.foster = false)
    (hsl : s4.slots = []) (hf : s4.fmt = []) (hform : s4.form = none) (hmode : s4.mode = .afterHead)
    (hstk : s4.stack = [⟨n, .html, .k .html, aH⟩]) (ba : List Attr) (bk : List Tree) (h3 : Attrs ba) (hb : FitsAll bodyCtx false bk) :
    ∃ s s', Run tbl s4 (tokens (el "body" ba bk) ++ [.endTag (codes "html") [] false]) s ∧ emit tbl .eof s = .ok s' ∧
      Grown s4.dom n [el "body" ba bk] s'.dom := by
  obtain ⟨d5, e5, n5⟩ := insert_eq (s := s4) hstk hfo h0 (.k .body) (given ba)
  have hl5 : d5.length = s4.dom.length + 1 := n5.len
  rw [hstk] at e5
  have r5 : Step tbl s4 (.startTag (codes "body") (ba.map fun a => (a.name, a.val)) false) { s4 with
      dom := d5, stack := [⟨s4.dom.length, .html, .k .body, given ba⟩, ⟨n, .html, .k .html, aH⟩], framesetOk := false, mode := .inBody } := by
    refine step_start hsl ?_ hst.switch
    rw [emit_html hst hstk rfl, tag_body]
    simp only [byMode, hmode]
    show (do
      let s ← insertHtml s4 (.k .body) (given ba)
      .ok { s with framesetOk := false, mode := .inBody } : R S) = _
    rw [e5]; rfl
  have fit5 : Fit bodyCtx { s4 with
      dom := d5, stack := [⟨s4.dom.length, .html, .k .body, given ba⟩, ⟨n, .html, .k .html, aH⟩], framesetOk := false, mode := .inBody } :=
    fit_body ⟨hst.switch, hst.omitLf⟩ hfo hsl rfl (by omega) (show s4.dom.length < d5.length by omega) (show n < d5.length by omega) hf hform rfl
  obtain ⟨s6, r6, f6⟩ := fitsAll_run (tbl := tbl) bk hb (fun h => absurd rfl h) fit5 (fun _ => new_noText n5)
  have fit6 := fit5.frame f6
  have g6 : Grown d5 s4.dom.length bk s6.dom := f6.dom
  have st6 : s6.stack = [⟨s4.dom.length, .html, .k .body, given ba⟩, ⟨n, .html, .k .html, aH⟩] := f6.rest.stack
  have m6 : s6.mode = .inBody := f6.rest.mode
  have r7 : Step tbl s6 (.endTag (codes "body") [] false) { s6 with mode := .afterBody } := by
    refine ⟨?_, fit6.still.switch⟩
    show emit tbl (.fin (Tag.ofName (codes "body"))) s6 = _
    rw [emit_html fit6.still st6 rfl, tag_body]
    simp only [byMode, m6]
    show (do
      if ← inScope defaultScope (·.is .body) s6.stack then .ok (s6.to .afterBody) else .ok s6 : R S) = _
    have : inScope defaultScope (·.is .body) s6.stack = .ok true := by rw [st6]; rfl
    rw [this]; rfl
  have r8 : Step tbl { s6 with mode := .afterBody } (.endTag (codes "html") [] false) { s6 with mode := .afterAfterBody } := by
    refine ⟨?_, fit6.still.switch⟩
    show emit tbl (.fin (Tag.ofName (codes "html"))) { s6 with mode := .afterBody } = _
    rw [emit_html (s := { s6 with mode := .afterBody }) ⟨fit6.still.switch, fit6.still.omitLf⟩ st6 rfl, tag_html]
    rfl
  refine ⟨{ s6 with mode := .afterAfterBody }, { s6 with mode := .afterAfterBody, stack := [] }, ?_, ?_, ?_⟩
  · unfold el tokens
    rw [if_neg (by decide +kernel)]
    exact .cons r5 ((r6.append (.one r7)).append (.one r8))
  · rw [emit_html (s := { s6 with mode := .afterAfterBody }) ⟨fit6.still.switch, fit6.still.omitLf⟩ st6 rfl]
    rfl
  · have := grown_node n5.lt n5.len n5.old n5.kids n5.new g6
    rw [← tag_body, elem_data h3] at this
    exact this

theorem whole_run (dt : List Tree) (ha hda ba : List Attr) (hk bk : List Tree)
    (hdt : dt = [] ∨ ∃ name, dt = [.mk (.doctype name) []]) (h1 : Attrs ha) (h2 : Attrs hda) (h3 : Attrs ba)
    (hh : HeadFitsAll false hk) (hb : FitsAll bodyCtx false bk) :
    ∃ s s', Run tbl init (tokensAll (dt ++ [el "html" ha [el "head" hda hk, el "body" ba bk]])) s ∧ emit tbl .eof s = .ok s' ∧
      Is s'.dom 0 (.mk .other (dt ++ [el "html" ha [el "head" hda hk, el "body" ba bk]])) := by
  obtain ⟨d0, d1, q, r1, g0, n1⟩ := root_run (tbl := tbl) dt hdt ha
  have hl1 := n1.len
  obtain ⟨s4, r4, gh, b1, b2, b3, b4, b5, b6, b7⟩ := head_stage (tbl := tbl) d1 q d0.length (by omega) (given ha) hda hk h2 hh
  obtain ⟨s, s', r6, he, gb⟩ := body_stage (tbl := tbl) (by have := gh.2.1; omega) b1 b2 b3 b4 b5 b6 b7 ba bk h3 hb
  refine ⟨s, s', ?_, he, ?_⟩
  · have ht : tokensAll (dt ++ [el "html" ha [el "head" hda hk, el "body" ba bk]]) =
        (tokensAll dt ++ [.startTag (codes "html") (ha.map fun a => (a.name, a.val)) false]) ++
        (tokens (el "head" hda hk) ++ (tokens (el "body" ba bk) ++ [.endTag (codes "html") [] false])) := by
      have one : ∀ D : Tree, tokensAll [D] = tokens D := fun D => by unfold tokensAll; rw [show tokensAll [] = [] by unfold tokensAll; rfl, List.append_nil]
      have two : ∀ D E : Tree, tokensAll [D, E] = tokens D ++ tokens E := fun D E => by rw [← one E]; conv_lhs => unfold tokensAll
      have three : ∀ (n : String) (l : List Attr) (ks : List Tree), codes n ∉ voidNames → tokens (el n l ks) =
          .startTag (codes n) (l.map fun a => (a.name, a.val)) false :: (tokensAll ks ++ [.endTag (codes n) [] false]) := fun n l ks h => by
        unfold el; conv_lhs => unfold tokens
        rw [if_neg h]
      rw [tokensAll_append, one, three "html" _ _ (by decide +kernel), two]
      simp
    rw [ht]
    exact r1.append (r4.append r6)
  · have gr : Grown d0 0 [el "html" ha [el "head" hda hk, el "body" ba bk]] s'.dom := by
      have := grown_node n1.lt n1.len n1.old n1.kids n1.new (grown_trans gh gb)
      rw [← tag_html, elem_data h1] at this
      exact this
    obtain ⟨a1, a2, a3, xs, a4, a5, a6⟩ := grown_trans g0 gr
    unfold Is
    have : s'.dom[0]? = some ⟨.document, none, xs⟩ := a5
    refine ⟨by simp [kindOf, this, data], ?_⟩
    simpa [kidsOf, this] using a6

end Verif.Proof.HtmlDoc
