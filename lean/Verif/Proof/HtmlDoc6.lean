import Verif.Proof.HtmlDoc5
/- Tables and their parts. -/
namespace Verif.Proof.HtmlDoc
open Verif.Model.HtmlTree
open Verif.Spec.HtmlTree (data)
open Verif.Spec.HtmlAtom (codes)
open Verif.Spec.HtmlDoc (Where Ctx inside isText blocks formatting scopes voids sections cells treated)
variable {tbl : List Nat → Bool} {re : Re} {s : S} {c : Ctx} {name : List Nat} {at' : List At}

theorem isIn_of {e : Entry} {l : List K} (h : e.isIn l = true) : ∃ k ∈ l, e.tag = .k k ∧ e.ns = .html := by
  unfold Entry.isIn at h
  simp only [Bool.and_eq_true, beq_iff_eq] at h
  cases ht : e.tag with
  | other _ => rw [ht] at h; cases h.2
  | k t => rw [ht] at h; simp only [Tag.mem, List.contains_iff_mem] at h; exact ⟨t, h.2, rfl, h.1⟩

theorem top_in {l : List K} (h : TopIn l s.stack) : ∃ e r k, s.stack = e :: r ∧ k ∈ l ∧ e.tag = .k k ∧ e.ns = .html := by
  cases hs : s.stack with
  | nil => rw [hs] at h; exact h.elim
  | cons e r =>
    rw [hs] at h
    obtain ⟨k, h1, h2, h3⟩ := isIn_of h
    exact ⟨e, r, k, rfl, h1, h2, h3⟩

theorem toTable_top (h : TopIn [.table] s.stack) : s.toTable = s := by
  obtain ⟨e, r, k, h1, h2, h3, h4⟩ := top_in h
  obtain rfl := List.mem_singleton.mp h2
  unfold S.toTable
  rw [h1]
  have : Verif.Model.HtmlTree.toTable (e :: r) = e :: r := by
    unfold Verif.Model.HtmlTree.toTable; simp [h4, h3, Tag.mem]
  rw [this, ← h1]

theorem backTo_top {l m : List K} (h : TopIn l s.stack) (hm : ∀ k ∈ l, k ∈ m) : s.backTo m = .ok s := by
  obtain ⟨e, r, k, h1, h2, h3, h4⟩ := top_in h
  unfold S.backTo
  rw [h1]
  have : Verif.Model.HtmlTree.backTo m (e :: r) = .ok (e :: r) := by
    unfold Verif.Model.HtmlTree.backTo
    have : e.isIn m = true := by simp [Entry.isIn, h4, h3, Tag.mem, hm k h2]
    rw [if_pos this]
  rw [this]
  simp only [bind, Except.bind, ← h1]

theorem opens_table (hF : Fit c s) (hc : c.at' = .flow) (hp : c.inP = false) : Opens tbl c s (codes "table") at' := by
  have he : Tag.ofName (codes "table") = .k .table := by decide +kernel
  have hin : inside c (codes "table") = ⟨.table, codes "table", false, false, false, c.inForm⟩ := by
    unfold inside
    rw [if_neg (by decide +kernel), if_pos rfl]
  obtain ⟨d, h1, h2⟩ := top_insert hF (Tag.ofName (codes "table")) at'
  obtain ⟨hm, hreset, hstop⟩ := hF.flow hc
  obtain ⟨e, l, e1, e2, e3, e4, e5, e6⟩ := hF.top_lt
  obtain ⟨n, hem⟩ := hF.emit (tbl := tbl) (.start (Tag.ofName (codes "table")) at' false)
  refine opens_of hF (s1 := { s with dom := d, stack := entry s (Tag.ofName (codes "table")) at' :: s.stack, framesetOk := false, mode := .inTable })
    ?_ rfl h2 rfl rfl ?_ ?_
  · rw [hem, flow_start hm (by decide +kernel)]
    rw [he] at h1 ⊢
    show (do
      let s ← if s.doc ≠ .quirks then closePIn s else .ok s
      let s ← insertHtml s (.k .table) at'
      .ok { s with framesetOk := false, mode := .inTable } : R S) = _
    dsimp only
    split <;> simp only [closeP_none (hF.p hp), bind, Except.bind, h1]
  · rw [hin]
    refine fit_push hF ⟨hF.still.switch, hF.still.omitLf⟩ hF.foster hF.slots rfl h2.len rfl (by decide +kernel)
      (fun e he => .inr he) hF.form ⟨rfl, ?_⟩ ?_ (fun h => by cases h) ?_
    · show (entry s (Tag.ofName (codes "table")) at').isIn [.table] = true
      rw [he]; rfl
    · exact fun _ => ⟨by decide +kernel, .inl (by rw [he]; rfl)⟩
    · exact fun _ => ⟨by decide +kernel, .inl (by rw [he]; rfl)⟩
  · intro s2 r
    have hstill : Still s2 := ⟨r.switch.trans hF.still.switch, r.omitLf.trans hF.still.omitLf⟩
    have hs2 : s2.stack = entry s (Tag.ofName (codes "table")) at' :: s.stack := r.stack
    have hm2 : s2.mode = .inTable := r.mode
    have hfo : s2.form = s.form := r.form
    have hfos : s2.foster = false := r.foster.trans hF.foster
    have hrs : resetMode s2.head s2.tmpl s.stack = .ok s.mode := by
      have a : s2.head = s.head := r.head
      have b : s2.tmpl = s.tmpl := r.tmpl
      rw [a, b]; exact hreset
    refine ⟨s2.fmt, ?_, r.fmt⟩
    rw [emit_html hstill hs2 rfl]
    generalize process tbl (9 * s2.stack.length + 8 * s2.fmt.length + 63) = re
    rw [he] at hs2 ⊢
    simp only [byMode, hm2]
    have a1 : inScope tableScope (·.is .table) s2.stack = .ok true := by rw [hs2]; simp [inScope, entry, Entry.is, Tag.is]
    have a2 : s2.popUntil (·.is .table) = { s2 with stack := s.stack } := by
      unfold S.popUntil; rw [hs2]; simp [Verif.Model.HtmlTree.popUntil, entry, Entry.is, Tag.is]
    have a3 : reset { s2 with stack := s.stack } = .ok { s2 with stack := s.stack, mode := s.mode } := by
      unfold reset; simp only [hrs, bind, Except.bind]
    show (do
      if ← inScope tableScope (·.is .table) s2.stack then
        let s ← reset (s2.popUntil (·.is .table))
        inTableElse re (.fin (.k .table)) s
      else .ok s2 : R S) = _
    simp only [a1, bind, Except.bind, if_true, a2, a3]
    unfold inTableElse
    have a4 : onInBody re (.fin (.k .table)) { s2 with stack := s.stack, mode := s.mode, foster := true } =
        .ok { s2 with stack := s.stack, mode := s.mode, foster := true } := by
      show otherEnd { s2 with stack := s.stack, mode := s.mode, foster := true } (.k .table) s.stack = _
      exact stops_end s.stack hstop
    simp only [a4, bind, Except.bind, ← hfo, ← hfos]

/-- A part of a table. -/
theorem opens_part (hF : Fit c s) (hc : c.at' ≠ .flow) {k : K} (he : Tag.ofName name = .k k) {w : Where} {m : Mode} {f : List Fmt}
    (hin : inside c name = ⟨w, name, false, false, false, c.inForm⟩) (hparts : k ∈ [K.caption, .colgroup, .tbody, .thead, .tfoot, .tr, .td, .th])
    (hcp : c.inP = false) (hcn : c.inNobr = false)
    (hst : ∀ n d, insertHtml s (.k k) at' = .ok { s with dom := d, stack := entry s (.k k) at' :: s.stack } →
      byMode tbl (process tbl n) (.start (.k k) at' false) s =
        .ok { s with dom := d, stack := entry s (.k k) at' :: s.stack, mode := m, fmt := f })
    (hmode : ∀ s1 : S, s1.stack = entry s (.k k) at' :: s.stack → s1.mode = m → ModeFits w s1)
    (hf : f = s.fmt ∨ f = .marker :: s.fmt) (hfw : w = .flow → f = .marker :: s.fmt)
    (hend : ∀ s2 n, s2.stack = entry s (.k k) at' :: s.stack → s2.mode = m → Fewer s2.fmt f →
      ∃ f3, byMode tbl (process tbl n) (.fin (.k k)) s2 = .ok { s2 with stack := s.stack, mode := s.mode, fmt := f3 } ∧ Fewer f3 s.fmt) :
    Opens tbl c s name at' := by
  obtain ⟨d, h1, h2⟩ := top_insert hF (Tag.ofName name) at'
  obtain ⟨e, l, e1, e2, e3, e4, e5, e6⟩ := hF.top_lt
  obtain ⟨n, hem⟩ := hF.emit (tbl := tbl) (.start (Tag.ofName name) at' false)
  rw [he] at h1 h2
  refine opens_of hF (s1 := { s with dom := d, stack := entry s (.k k) at' :: s.stack, mode := m, fmt := f })
    ?_ (by rw [he]) (by rw [he]; exact h2) rfl rfl ?_ ?_
  · rw [hem, he, hst n d h1]
  · rw [hin]
    have hnot : (Tag.k k).is .template = false ∧ (Tag.k k).is .p = false ∧ (Tag.k k).is .nobr = false :=
      (by decide : ∀ k ∈ [K.caption, .colgroup, .tbody, .thead, .tfoot, .tr, .td, .th],
        (Tag.k k).is .template = false ∧ (Tag.k k).is .p = false ∧ (Tag.k k).is .nobr = false) k hparts
    refine fit_push hF ⟨hF.still.switch, hF.still.omitLf⟩ hF.foster hF.slots rfl h2.len he.symm hnot.1
      (fun e he => .inr ?_) hF.form (hmode _ rfl rfl) (fun _ => ⟨hnot.2.1, .inr hcp⟩) ?_ (fun _ => ⟨hnot.2.2, .inr hcn⟩)
    · rcases hf with hf | hf
      · rw [hf] at he; exact he
      · rw [hf] at he; simpa using he
    · intro hw _ x hx
      rw [hfw hw] at hx
      simp [behindMarker] at hx
  · intro s2 r
    have hstill : Still s2 := ⟨r.switch.trans hF.still.switch, r.omitLf.trans hF.still.omitLf⟩
    have hs2 : s2.stack = entry s (.k k) at' :: s.stack := r.stack
    have hfo : s2.form = s.form := r.form
    obtain ⟨f3, h3, h4⟩ := hend s2 (9 * s2.stack.length + 8 * s2.fmt.length + 63) hs2 r.mode r.fmt
    exact ⟨f3, by rw [emit_html hstill hs2 rfl, he, h3, ← hfo], h4⟩

theorem Fit.toTable (hF : Fit c s) (hc : c.at' = .table) : s.mode = .inTable ∧ TopIn [.table] s.stack := by
  have := hF.mode; rw [hc] at this; exact this

theorem implied_top {e : Entry} {l : List Entry} (hs : s.stack = e :: l)
    (hi : e.isIn [.dd, .dt, .li, .optgroup, .option, .p, .rb, .rp, .rt, .rtc] = false) : s.implied = s := by
  unfold S.implied; rw [hs, implied_none _ (.inr hi), ← hs]

theorem opens_caption (hF : Fit c s) (hc : c.at' = .table) (hcp : c.inP = false) (hcn : c.inNobr = false) :
    Opens tbl c s (codes "caption") at' := by
  obtain ⟨hm, ht⟩ := hF.toTable hc
  obtain ⟨e, l, e1, e2, e3, e4, e5, e6⟩ := hF.top_lt
  have he : Tag.ofName (codes "caption") = .k .caption := by decide +kernel
  refine opens_part hF (by rw [hc]; simp) he (w := .flow) (m := .inCaption) (f := .marker :: s.fmt) ?_ (by decide) hcp hcn ?_ ?_ (.inr rfl)
    (fun _ => rfl) ?_
  · unfold inside; rw [if_pos (by decide +kernel)]
  · intro n d h1
    simp only [byMode, hm]
    show (do
      let s ← insertHtml (pushMarker s.toTable) (.k .caption) at'
      .ok (s.to .inCaption) : R S) = _
    rw [toTable_top ht]
    have : insertHtml (pushMarker s) (.k .caption) at' =
        .ok { s with dom := d, stack := entry s (.k .caption) at' :: s.stack, fmt := .marker :: s.fmt } := by
      unfold insertHtml insertForeign at h1 ⊢
      simp only [cur, e1, bind, Except.bind, create, place, hF.foster, Bool.false_and, Bool.false_eq_true, if_false, pushMarker] at h1 ⊢
      cases hl : link (s.dom ++ [⟨.elem .html (.k .caption) at', none, []⟩]) (.last e.node) s.dom.length with
      | error x => rw [hl] at h1; cases h1
      | ok d' =>
        rw [hl] at h1
        injection h1 with h1
        have : d' = d := congrArg S.dom h1
        subst this
        rfl
    rw [this]; rfl
  · intro s1 h1 h2
    refine ⟨.inr (.inr h2), ?_, ?_⟩
    · rw [h1, h2]; rfl
    · rw [h1]; exact ⟨rfl, .inl rfl⟩
  · intro s2 n hs h2 h3
    refine ⟨s.fmt, ?_, .refl _⟩
    simp only [byMode, h2]
    show (do
      if ← inScope tableScope (·.is .caption) s2.stack then closeCaption s2 else .ok s2 : R S) = _
    have a1 : inScope tableScope (·.is .caption) s2.stack = .ok true := by rw [hs]; rfl
    simp only [a1, bind, Except.bind, if_true, closeCaption]
    rw [implied_top hs rfl]
    simp only [cur, hs, S.popUntil, Verif.Model.HtmlTree.popUntil, S.clearFmt, S.to, h3.marker, clearMarker, hm]
    rfl

theorem opens_group (hF : Fit c s) (hc : c.at' = .table) (hcp : c.inP = false) (hcn : c.inNobr = false) :
    Opens tbl c s (codes "colgroup") at' := by
  obtain ⟨hm, ht⟩ := hF.toTable hc
  have he : Tag.ofName (codes "colgroup") = .k .colgroup := by decide +kernel
  refine opens_part hF (by rw [hc]; simp) he (w := .group) (m := .inColumnGroup) (f := s.fmt) ?_ (by decide) hcp hcn ?_ ?_ (.inl rfl)
    (fun h => by cases h) ?_
  · unfold inside; rw [if_neg (by decide +kernel), if_neg (by decide +kernel), if_pos rfl]
  · intro n d h1
    simp only [byMode, hm]
    show (do
      let s ← insertHtml s.toTable (.k .colgroup) at'
      .ok (s.to .inColumnGroup) : R S) = _
    rw [toTable_top ht, h1]; rfl
  · intro s1 h1 h2
    exact ⟨h2, by rw [h1]; rfl⟩
  · intro s2 n hs h2 h3
    refine ⟨s2.fmt, ?_, h3⟩
    simp only [byMode, h2]
    show (do
      let e ← cur s2
      if e.is .colgroup then
        let s ← pop s2
        .ok (s.to .inTable)
      else .ok s2 : R S) = _
    simp only [cur, hs, bind, Except.bind, pop, hm]
    rfl

theorem opens_section (hF : Fit c s) (hc : c.at' = .table) (hn : name ∈ sections) (hcp : c.inP = false) (hcn : c.inNobr = false) :
    Opens tbl c s name at' := by
  obtain ⟨hm, ht⟩ := hF.toTable hc
  obtain ⟨k, hk, he⟩ := mem_tags (l := [.tbody, .thead, .tfoot]) (by decide +kernel) hn
  refine opens_part hF (by rw [hc]; simp) he (w := .sect) (m := .inTableBody) (f := s.fmt) ?_ ?_ hcp hcn ?_ ?_ (.inl rfl)
    (fun h => by cases h) ?_
  · have := (by decide +kernel : ∀ n ∈ sections, n ∉ codes "caption" :: cells ∧ n ≠ codes "table" ∧ n ≠ codes "colgroup") name hn
    unfold inside; rw [if_neg this.1, if_neg this.2.1, if_neg this.2.2, if_pos hn]
  · exact (by decide : ∀ k ∈ [K.tbody, .thead, .tfoot], k ∈ [K.caption, .colgroup, .tbody, .thead, .tfoot, .tr, .td, .th]) k hk
  · intro n d h1
    simp only [byMode, hm]
    have : onInTable (process tbl n) (.start (.k k) at' false) s = (do
      let s ← insertHtml s.toTable (.k k) at'
      .ok (s.to .inTableBody) : R S) := by cases k <;> first | rfl | exact absurd hk (by decide)
    rw [this, toTable_top ht, h1]; rfl
  · intro s1 h1 h2
    refine ⟨h2, ?_⟩
    rw [h1]
    show (entry s (.k k) at').isIn [.tbody, .thead, .tfoot] = true
    simpa [entry, Entry.isIn, Tag.mem] using hk
  · intro s2 n hs h2 h3
    refine ⟨s2.fmt, ?_, h3⟩
    simp only [byMode, h2]
    have : onInTableBody (process tbl n) (.fin (.k k)) s2 = (do
      if ← inScope tableScope (·.isTag (.k k)) s2.stack then
        let s ← s2.backTo bodyContext
        let s ← pop s
        .ok (s.to .inTable)
      else .ok s2 : R S) := by cases k <;> first | rfl | exact absurd hk (by decide)
    have hb : s2.backTo bodyContext = .ok s2 := backTo_top (l := [.tbody, .thead, .tfoot])
      (by rw [hs]; show (entry s (.k k) at').isIn [.tbody, .thead, .tfoot] = true; simpa [entry, Entry.isIn, Tag.mem] using hk) (by decide)
    have a1 : inScope tableScope (·.isTag (.k k)) s2.stack = .ok true := by rw [hs]; simp [inScope, isTag_entry]
    rw [this, a1]
    simp only [bind, Except.bind, if_true, hb, pop, hs, hm]
    rfl

theorem opens_tr (hF : Fit c s) (hc : c.at' = .sect) (hcp : c.inP = false) (hcn : c.inNobr = false) :
    Opens tbl c s (codes "tr") at' := by
  obtain ⟨hm, ht⟩ : s.mode = .inTableBody ∧ TopIn [.tbody, .thead, .tfoot] s.stack := by have := hF.mode; rw [hc] at this; exact this
  have he : Tag.ofName (codes "tr") = .k .tr := by decide +kernel
  refine opens_part hF (by rw [hc]; simp) he (w := .row) (m := .inRow) (f := s.fmt) ?_ (by decide) hcp hcn ?_ ?_ (.inl rfl)
    (fun h => by cases h) ?_
  · unfold inside; rw [if_neg (by decide +kernel), if_neg (by decide +kernel), if_neg (by decide +kernel), if_neg (by decide +kernel), if_pos rfl]
  · intro n d h1
    simp only [byMode, hm]
    show (do
      let s ← s.backTo bodyContext
      let s ← insertHtml s (.k .tr) at'
      .ok (s.to .inRow) : R S) = _
    rw [backTo_top ht (by decide)]
    simp only [bind, Except.bind, h1]
    rfl
  · intro s1 h1 h2
    exact ⟨h2, by rw [h1]; rfl⟩
  · intro s2 n hs h2 h3
    refine ⟨s2.fmt, ?_, h3⟩
    simp only [byMode, h2]
    show (do
      if ← inScope tableScope (·.is .tr) s2.stack then popRow s2 else .ok s2 : R S) = _
    have a1 : inScope tableScope (·.is .tr) s2.stack = .ok true := by rw [hs]; rfl
    have hb : s2.backTo rowContext = .ok s2 := backTo_top (l := [.tr]) (by rw [hs]; rfl) (by decide)
    have hac : assertCur s2 .tr = .ok () := by unfold assertCur; simp only [cur, hs, bind, Except.bind]; rfl
    simp only [a1, bind, Except.bind, if_true, popRow, hb, hac, pop, hs, hm]
    rfl

theorem opens_cell (hF : Fit c s) (hc : c.at' = .row) (hn : name ∈ cells) (hcp : c.inP = false) (hcn : c.inNobr = false) :
    Opens tbl c s name at' := by
  obtain ⟨hm, ht⟩ : s.mode = .inRow ∧ TopIn [.tr] s.stack := by have := hF.mode; rw [hc] at this; exact this
  obtain ⟨k, hk, he⟩ := mem_tags (l := [.td, .th]) (by decide +kernel) hn
  obtain ⟨e, l, e1, e2, e3, e4, e5, e6⟩ := hF.top_lt
  refine opens_part hF (by rw [hc]; simp) he (w := .flow) (m := .inCell) (f := .marker :: s.fmt) ?_ ?_ hcp hcn ?_ ?_ (.inr rfl)
    (fun _ => rfl) ?_
  · unfold inside; rw [if_pos (List.mem_cons_of_mem _ hn)]
  · exact (by decide : ∀ k ∈ [K.td, .th], k ∈ [K.caption, .colgroup, .tbody, .thead, .tfoot, .tr, .td, .th]) k hk
  · intro n d h1
    simp only [byMode, hm]
    have : onInRow (process tbl n) (.start (.k k) at' false) s = (do
      let s ← s.backTo rowContext
      let s ← insertHtml s (.k k) at'
      .ok (pushMarker (s.to .inCell)) : R S) := by cases k <;> first | rfl | exact absurd hk (by decide)
    rw [this, backTo_top ht (by decide)]
    simp only [bind, Except.bind, h1]
    rfl
  · intro s1 h1 h2
    refine ⟨.inr (.inl h2), ?_, ?_⟩
    · rw [h1, h2, e1]
      rcases List.mem_cons.mp hk with rfl | hk
      · rfl
      · rw [List.mem_singleton.mp hk]; rfl
    · rw [h1]
      rcases List.mem_cons.mp hk with rfl | hk
      · exact ⟨rfl, .inl rfl⟩
      · rw [List.mem_singleton.mp hk]; exact ⟨rfl, .inl rfl⟩
  · intro s2 n hs h2 h3
    refine ⟨s.fmt, ?_, .refl _⟩
    simp only [byMode, h2]
    have : onInCell (process tbl n) (.fin (.k k)) s2 = (do
      if ← inScope tableScope (·.isTag (.k k)) s2.stack then
        let s := s2.implied
        let _ ← cur s
        .ok ((s.popUntil (·.isTag (.k k))).clearFmt.to .inRow)
      else .ok s2 : R S) := by cases k <;> first | rfl | exact absurd hk (by decide)
    obtain ⟨a1, a2, a3, a4⟩ := scoped_end (p := (·.isTag (.k k))) hs (isTag_entry _ _ _)
      (by simp only [entry, Entry.isIn, Tag.mem]
          have := (by decide : ∀ k ∈ [K.td, .th], [K.dd, .dt, .li, .optgroup, .option, .p, .rb, .rp, .rt, .rtc].contains k = false) k hk
          rw [this]; rfl) tableScope
    rw [this]
    simp only [a1, bind, Except.bind, if_true, a2, a3, a4, S.clearFmt, S.to, h3.marker, clearMarker, hm]

theorem col_run (hF : Fit c s) (hc : c.at' = .group) :
    ∃ s1, emit tbl (.start (Tag.ofName (codes "col")) at' false) s = .ok s1 ∧ Rest s s1 ∧
      New s.dom (top s) (.elem .html (Tag.ofName (codes "col")) at') s1.dom := by
  obtain ⟨hm, ht⟩ : s.mode = .inColumnGroup ∧ TopIn [.colgroup] s.stack := by have := hF.mode; rw [hc] at this; exact this
  have he : Tag.ofName (codes "col") = .k .col := by decide +kernel
  obtain ⟨d, h1, h2⟩ := top_insertPop hF (Tag.ofName (codes "col")) at'
  obtain ⟨n, hem⟩ := hF.emit (tbl := tbl) (.start (Tag.ofName (codes "col")) at' false)
  refine ⟨{ s with dom := d }, ?_, ⟨rfl, rfl, rfl, rfl, rfl, rfl, rfl, rfl, rfl, .refl _⟩, h2⟩
  rw [hem]
  rw [he] at h1 ⊢
  have : byMode tbl (process tbl n) (.start (.k .col) at' false) s = insertPop s (.k .col) at' := by simp only [byMode, hm]; rfl
  rw [this, h1]

end Verif.Proof.HtmlDoc
