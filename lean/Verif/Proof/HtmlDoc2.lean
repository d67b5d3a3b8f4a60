import Verif.Proof.HtmlDoc1
import Verif.Proof.HtmlRoundTrip4
/- What the handlers do with the tags of a document that needs no repair. -/
namespace Verif.Proof.HtmlDoc
open Verif.Model.HtmlTree
open Verif.Spec.HtmlTree (data)
open Verif.Spec.HtmlAtom (codes)
variable {tbl : List Nat → Bool} {re : Re} {s : S} {attrs : List At} {self : Bool}

/-! ### Names -/

theorem names_inj : ∀ e ∈ K.names, K.names.find? (fun x => x.1 == e.1) = some e := by decide +kernel

theorem ofName_name (s : List Nat) : (Tag.ofName s).name = s := by
  unfold Tag.ofName
  cases h : K.names.find? (fun e => cps e.2 == s) with
  | none => rfl
  | some e =>
    have h1 := names_inj e (List.mem_of_find?_eq_some h)
    have h2 := List.find?_some h
    simp only [Tag.name, h1]
    simpa using h2

theorem ofName_inj {a b : List Nat} (h : Tag.ofName a = Tag.ofName b) : a = b := by
  rw [← ofName_name a, h, ofName_name]

/-- A name that is none of some names is no tag of these. -/
theorem mem_false {l : List K} {L : List (List Nat)} {name : List Nat} (hl : ∀ k ∈ l, ((Tag.k k).name) ∈ L) (h : name ∉ L) :
    (Tag.ofName name).mem l = false := by
  cases ht : Tag.ofName name with
  | other s => rfl
  | k t =>
    simp only [Tag.mem]
    by_contra hc
    have hm : t ∈ l := by simpa using hc
    have := hl t hm
    rw [← ht, ofName_name] at this
    exact h this

/-- The tags of names of a list. -/
theorem mem_tags {l : List K} {L : List (List Nat)} (h : L.map Tag.ofName = l.map Tag.k) {name : List Nat} (hn : name ∈ L) :
    ∃ k ∈ l, Tag.ofName name = .k k := by
  have : Tag.ofName name ∈ l.map Tag.k := h ▸ List.mem_map_of_mem hn
  obtain ⟨k, hk, he⟩ := List.mem_map.mp this
  exact ⟨k, hk, he.symm⟩

/-! ### Tokens reach the handlers -/

/-- The state has nothing pending. -/
structure Still (s : S) : Prop where
  switch : s.switch = none
  omitLf : s.omitLf = false

theorem emit_html (h : Still s) {e : Entry} {l : List Entry} (hs : s.stack = e :: l) (hn : e.ns = .html) (tok : Tok) :
    emit tbl tok s = byMode tbl (process tbl (9 * s.stack.length + 8 * s.fmt.length + 63)) tok s := by
  have e1 : ({ s with switch := none } : S) = s := by rw [← h.switch]
  have e2 : ({ s with omitLf := false } : S) = s := by rw [← h.omitLf]
  unfold emit
  rw [e1]
  show process tbl (9 * s.stack.length + 8 * s.fmt.length + 63 + 1) tok s = _
  unfold process
  rw [h.omitLf, e2]
  simp only [Bool.false_and, Bool.false_eq_true, if_false]
  unfold step
  rw [hs]
  have : byRules e tok = true := by cases tok <;> simp [byRules, hn]
  simp [this]

/-- The modes of flow content. -/
def Flow (m : Mode) : Prop := m = .inBody ∨ m = .inCell ∨ m = .inCaption

/-- The tags of the parts of tables. -/
def tableK : List K := [.caption, .col, .colgroup, .tbody, .td, .tfoot, .th, .thead, .tr]

theorem flow_char (h : Flow s.mode) (c : Nat) : byMode tbl re (.char c) s = onInBody re (.char c) s := by
  rcases h with h | h | h <;> simp only [byMode, h, onInCell, onInCaption]

theorem flow_comment (h : Flow s.mode) (t : List Nat) : byMode tbl re (.comment t) s = onInBody re (.comment t) s := by
  rcases h with h | h | h <;> simp only [byMode, h, onInCell, onInCaption]

theorem flow_start (h : Flow s.mode) {t : Tag} (ht : t.mem tableK = false) :
    byMode tbl re (.start t attrs self) s = bodyStart re t attrs self s := by
  unfold tableK at ht
  rcases h with h | h | h <;> simp [byMode, h, onInCell, onInCaption, ht, onInBody]

theorem mem_sub {t : Tag} {l m : List K} (hs : ∀ k ∈ m, k ∈ l) (h : t.mem l = false) : t.mem m = false := by
  cases t with
  | other s => rfl
  | k t =>
    simp only [Tag.mem] at h ⊢
    by_contra hc
    have : t ∈ m := by simpa using hc
    have := hs t this
    simp at h
    exact h this

theorem is_sub {t : Tag} {l : List K} {x : K} (hs : x ∈ l) (h : t.mem l = false) : t.is x = false := by
  cases t with
  | other s => rfl
  | k t =>
    simp only [Tag.mem, Tag.is] at h ⊢
    by_contra hc
    have : t = x := by simpa using hc
    subst this
    simp at h
    exact h hs

theorem flow_end (h : Flow s.mode) {t : Tag} (ht : t.mem (.table :: .body :: .html :: tableK) = false) :
    byMode tbl re (.fin t) s = bodyEnd re t s := by
  have h1 : t.mem [.td, .th] = false := mem_sub (by decide) ht
  have h2 : t.mem [.body, .caption, .col, .colgroup, .html] = false := mem_sub (by decide) ht
  have h3 : t.mem [.table, .tbody, .tfoot, .thead, .tr] = false := mem_sub (by decide) ht
  have h4 : t.is .caption = false := is_sub (by decide) ht
  have h5 : t.is .table = false := is_sub (by decide) ht
  have h6 : t.mem [.body, .col, .colgroup, .html, .tbody, .td, .tfoot, .th, .thead] = false := mem_sub (by decide) ht
  rcases h with h | h | h <;> simp [byMode, h, onInCell, onInCaption, onInBody, h1, h2, h3, h4, h5, h6]

/-! ### Start tags in flow content -/

theorem start_block {k : K} (hk : k ∈ blockTags) : bodyStart re (.k k) attrs self s = (do
    let s ← closePIn s
    insertHtml s (.k k) attrs) := by
  cases k <;> first | rfl | exact absurd hk (by decide)

theorem start_heading {k : K} (hk : k ∈ headings) : bodyStart re (.k k) attrs self s = (do
    let s ← closePIn s
    let e ← cur s
    let s ← if e.isIn headings then pop s else .ok s
    insertHtml s (.k k) attrs) := by
  cases k <;> first | rfl | exact absurd hk (by decide)

theorem start_fmt {k : K} (hk : k ∈ fmtTags) : bodyStart re (.k k) attrs self s = (do
    let s ← reconstruct s
    insertFmtEl s (.k k) attrs) := by
  cases k <;> first | rfl | exact absurd hk (by decide)

theorem start_scope {k : K} (hk : k ∈ [K.applet, .marquee, .object]) : bodyStart re (.k k) attrs self s = (do
    let s ← reconstruct s
    let s ← insertHtml s (.k k) attrs
    .ok { pushMarker s with framesetOk := false }) := by
  cases k <;> first | rfl | exact absurd hk (by decide)

theorem start_void1 {k : K} (hk : k ∈ [K.base, .basefont, .bgsound, .link, .metaEl, .param, .source, .track]) :
    bodyStart re (.k k) attrs self s = insertPop s (.k k) attrs := by
  cases k <;> first | rfl | exact absurd hk (by decide)

theorem start_void2 {k : K} (hk : k ∈ [K.area, .br, .embed, .img, .keygen, .wbr]) : bodyStart re (.k k) attrs self s = (do
    let s ← reconstruct s
    let s ← insertPop s (.k k) attrs
    .ok { s with framesetOk := false }) := by
  cases k <;> first | rfl | exact absurd hk (by decide)

/-- The tags with rules of their own. -/
def treatedK : List K := blockTags ++ headings ++ fmtTags ++ [.applet, .marquee, .object, .area, .base, .basefont, .bgsound, .br,
  .embed, .hr, .img, .input, .keygen, .link, .metaEl, .param, .source, .track, .wbr, .a, .nobr, .li, .dd, .dt, .form, .table, .caption,
  .colgroup, .col, .tbody, .thead, .tfoot, .tr, .td, .th, .html, .head, .body, .frameset, .frame, .noframes, .style, .script, .title,
  .template, .textarea, .xmp, .iframe, .noembed, .plaintext, .pre, .listing, .button, .select, .option, .optgroup, .rb, .rp, .rt, .rtc,
  .math, .svg, .image]

theorem start_other {t : Tag} (ht : t.mem treatedK = false) : bodyStart re t attrs self s = (do
    let s ← reconstruct s
    insertHtml s t attrs) := by
  cases t with
  | other _ => rfl
  | k t => cases t <;> first | rfl | exact absurd ht (by decide)

theorem end_other {t : Tag} (ht : t.mem treatedK = false) : bodyEnd re t s = otherEnd s t s.stack := by
  cases t with
  | other _ => rfl
  | k t => cases t <;> first | rfl | exact absurd ht (by decide)

theorem end_block {k : K} (hk : k ∈ blockTags) (hp : k ≠ .p) : bodyEnd re (.k k) s = (do
    if ← inScope defaultScope (·.isTag (.k k)) s.stack then
      let s := s.implied
      let _ ← cur s
      .ok (s.popUntil (·.isTag (.k k)))
    else .ok s) := by
  cases k <;> first | rfl | exact absurd hk (by decide) | exact absurd rfl hp

theorem end_heading {k : K} (hk : k ∈ headings) : bodyEnd re (.k k) s = (do
    if ← inScope defaultScope (·.isIn headings) s.stack then
      let s := s.implied
      let _ ← cur s
      .ok (s.popUntil (·.isIn headings))
    else .ok s) := by
  cases k <;> first | rfl | exact absurd hk (by decide)

theorem end_fmt {k : K} (hk : k ∈ K.a :: .nobr :: fmtTags) : bodyEnd re (.k k) s = (do
    let (other, s) ← adoption s (.k k)
    if other then otherEnd s (.k k) s.stack else .ok s) := by
  cases k <;> first | rfl | exact absurd hk (by decide)

theorem end_scope {k : K} (hk : k ∈ [K.applet, .marquee, .object]) : bodyEnd re (.k k) s = (do
    if ← inScope defaultScope (·.isTag (.k k)) s.stack then
      let s := s.implied
      let _ ← cur s
      .ok (s.popUntil (·.isTag (.k k))).clearFmt
    else .ok s) := by
  cases k <;> first | rfl | exact absurd hk (by decide)

/-! ### Small steps -/

theorem closeP_none (h : inScope buttonScope (·.is .p) s.stack = .ok false) : closePIn s = .ok s := by
  unfold closePIn; rw [h]; rfl

theorem reopen_none (h : ∀ e l, s.fmt = .el e :: l → hasNode s e.node = true) : reconstruct s = .ok s := by
  unfold reconstruct
  have : toOpen s s.fmt = ([], s.fmt) := by
    cases hf : s.fmt with
    | nil => rfl
    | cons f l =>
      cases f with
      | marker => rfl
      | el e => unfold toOpen; rw [if_pos (h e l hf)]
  rw [this]
  rfl

/-- The store behind a new child of `n`. -/
structure New (d : Dom) (n : Nat) (k : Kind) (d' : Dom) : Prop where
  lt : n < d.length
  len : d'.length = d.length + 1
  old : ∀ x, x ≠ n → x < d.length → d'[x]? = d[x]?
  kids : d'[n]? = (d[n]?).map (fun nd => { nd with kids := nd.kids ++ [d.length] })
  new : d'[d.length]? = some ⟨k, some n, []⟩

theorem insert_eq {e : Entry} {l : List Entry} (hs : s.stack = e :: l) (hf : s.foster = false) (hn : e.node < s.dom.length) (t : Tag)
    (attrs : List At) : ∃ d', insertHtml s t attrs = .ok { s with dom := d', stack := ⟨s.dom.length, .html, t, attrs⟩ :: s.stack } ∧
      New s.dom e.node (.elem .html t attrs) d' := by
  obtain ⟨d', h1, h2, h3, h4, h5⟩ := link_new s.dom e.node (.elem .html t attrs) hn
  refine ⟨d', ?_, ⟨hn, h2, h3, h4, h5⟩⟩
  unfold insertHtml insertForeign
  have hc : cur s = .ok e := by unfold cur; rw [hs]
  have hp : place s e = .ok (.last e.node) := by unfold place; rw [hf]; rfl
  rw [hc]
  show (do
    let pl ← place s e
    let (n, s) := create s .html t attrs
    let d ← link s.dom pl n
    .ok { s with dom := d, stack := ⟨n, .html, t, attrs⟩ :: s.stack } : R S) = _
  rw [hp]
  show (do
    let d ← link (s.dom ++ [⟨.elem .html t attrs, none, []⟩]) (.last e.node) s.dom.length
    .ok { s with dom := d, stack := ⟨s.dom.length, .html, t, attrs⟩ :: s.stack } : R S) = _
  rw [h1]
  rfl

theorem insertPop_eq {e : Entry} {l : List Entry} (hs : s.stack = e :: l) (hf : s.foster = false) (hn : e.node < s.dom.length) (t : Tag)
    (attrs : List At) : ∃ d', insertPop s t attrs = .ok { s with dom := d' } ∧ New s.dom e.node (.elem .html t attrs) d' := by
  obtain ⟨d', h1, h2⟩ := insert_eq hs hf hn t attrs
  exact ⟨d', by unfold insertPop; rw [h1]; rfl, h2⟩

theorem comment_eq {e : Entry} {l : List Entry} (hs : s.stack = e :: l) (hf : s.foster = false) (hn : e.node < s.dom.length)
    (t : List Nat) : ∃ d', insertComment s t = .ok { s with dom := d' } ∧ New s.dom e.node (.comment t) d' := by
  obtain ⟨d', h1, h2, h3, h4, h5⟩ := link_new s.dom e.node (.comment t) hn
  refine ⟨d', ?_, ⟨hn, h2, h3, h4, h5⟩⟩
  unfold insertComment
  have hc : cur s = .ok e := by unfold cur; rw [hs]
  have hp : place s e = .ok (.last e.node) := by unfold place; rw [hf]; rfl
  rw [hc]
  show (do
    let pl ← place s e
    commentAt s pl t : R S) = _
  rw [hp]
  show commentAt s (.last e.node) t = _
  unfold commentAt
  rw [h1]
  rfl

/-- The last child is no text. -/
def NoText (d : Dom) (n : Nat) : Prop := ∀ x, (kidsOf d n).getLast? = some x → ∀ t, kindOf d x ≠ some (.text t)

theorem char_new {e : Entry} {l : List Entry} (hs : s.stack = e :: l) (hf : s.foster = false) (hn : e.node < s.dom.length)
    (h0 : e.node ≠ 0) (ht : NoText s.dom e.node) (c : Nat) :
    ∃ d', insertChar s c = .ok { s with dom := d' } ∧ New s.dom e.node (.text [c]) d' := by
  obtain ⟨d', h1, h2, h3, h4, h5⟩ := link_new s.dom e.node (.text [c]) hn
  refine ⟨d', ?_, ⟨hn, h2, h3, h4, h5⟩⟩
  unfold insertChar
  have hc : cur s = .ok e := by unfold cur; rw [hs]
  have hp : place s e = .ok (.last e.node) := by unfold place; rw [hf]; rfl
  rw [hc]
  simp only [bind, Except.bind, hp, Place.parent, if_neg h0, h1]
  cases hk : prevKid s.dom e.node (.last e.node) with
  | none => rfl
  | some x =>
    have := ht x hk
    cases hk2 : kindOf s.dom x with
    | none => simp [hk2]
    | some k =>
      rw [hk2] at this
      cases k <;> first | (simp [hk2]; done) | exact absurd rfl (this _)

theorem char_more {e : Entry} {l : List Entry} (hs : s.stack = e :: l) (hf : s.foster = false)
    (h0 : e.node ≠ 0) {x : Nat} {t : List Nat} (hx : (kidsOf s.dom e.node).getLast? = some x) (hk : kindOf s.dom x = some (.text t))
    (c : Nat) :
    insertChar s c = .ok { s with dom := s.dom.modify x fun n => { n with kind := .text (t ++ [c]) } } := by
  unfold insertChar
  have hc : cur s = .ok e := by unfold cur; rw [hs]
  have hp : place s e = .ok (.last e.node) := by unfold place; rw [hf]; rfl
  rw [hc]
  simp only [bind, Except.bind, hp, Place.parent, if_neg h0, prevKid, hx, Option.bind, hk]

/-! ### End tags at their element -/

theorem implied_none {e : Entry} {l : List Entry} (keep : Entry → Bool) (h : keep e = true ∨
    e.isIn [.dd, .dt, .li, .optgroup, .option, .p, .rb, .rp, .rt, .rtc] = false) : implied keep (e :: l) = e :: l := by
  unfold implied
  rcases h with h | h
  · rw [if_pos h]
  · rw [h]; simp

theorem other_end {e : Entry} {l : List Entry} {t : Tag} (hs : s.stack = e :: l) (h : e.isTag t = true) :
    otherEnd s t s.stack = .ok { s with stack := l } := by
  rw [hs]
  unfold otherEnd
  rw [if_pos h]
  have : s.implied (·.isTag t) = s := by
    unfold S.implied; rw [hs, implied_none _ (.inl h), ← hs]
  rw [this]
  simp only [bind, Except.bind, cur, hs, S.popUntil, Verif.Model.HtmlTree.popUntil, beq_self_eq_true, if_true]

theorem scoped_end {e : Entry} {l : List Entry} {p : Entry → Bool} (hs : s.stack = e :: l) (h : p e = true)
    (hi : e.isIn [.dd, .dt, .li, .optgroup, .option, .p, .rb, .rp, .rt, .rtc] = false) (scope : Entry → Bool) :
    inScope scope p s.stack = .ok true ∧ s.implied = s ∧ cur s = .ok e ∧ s.popUntil p = { s with stack := l } := by
  refine ⟨by rw [hs]; simp [inScope, h], ?_, by unfold cur; rw [hs], ?_⟩
  · unfold S.implied; rw [hs, implied_none _ (.inr hi), ← hs]
  · unfold S.popUntil; rw [hs]; simp [Verif.Model.HtmlTree.popUntil, h]

end Verif.Proof.HtmlDoc
