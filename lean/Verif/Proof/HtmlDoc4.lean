import Verif.Proof.HtmlDoc3
/- Elements among flow content are opened and closed. -/
namespace Verif.Proof.HtmlDoc
open Verif.Model.HtmlTree
open Verif.Spec.HtmlTree (data)
open Verif.Spec.HtmlAtom (codes)
open Verif.Spec.HtmlDoc (Where Ctx inside isText blocks formatting scopes voids sections cells treated)
variable {tbl : List Nat → Bool} {re : Re} {s : S} {c : Ctx} {name : List Nat} {at' : List At}

/-- The start tag puts an element below the current one, and within the state fits to what is inside; the end tag then puts
everything back. -/
def Opens (tbl : List Nat → Bool) (c : Ctx) (s : S) (name : List Nat) (at' : List At) : Prop :=
  ∃ s1, emit tbl (.start (Tag.ofName name) at' false) s = .ok s1 ∧ Fit (inside c name) s1 ∧
    New s.dom (top s) (.elem .html (Tag.ofName name) at') s1.dom ∧ top s1 = s.dom.length ∧
    ∀ s2, Rest s1 s2 → ∃ s3, emit tbl (.fin (Tag.ofName name)) s2 = .ok s3 ∧ Rest s s3 ∧ s3.dom = s2.dom

theorem opens_of (hF : Fit c s) {s1 : S} (h1 : emit tbl (.start (Tag.ofName name) at' false) s = .ok s1)
    (hstk : s1.stack = entry s (Tag.ofName name) at' :: s.stack)
    (hnew : New s.dom (top s) (.elem .html (Tag.ofName name) at') s1.dom) (htm : s1.tmpl = s.tmpl) (hhd : s1.head = s.head)
    (hfit : Fit (inside c name) s1)
    (h2 : ∀ s2, Rest s1 s2 → ∃ f3, emit tbl (.fin (Tag.ofName name)) s2 =
      .ok { s2 with stack := s.stack, fmt := f3, form := s.form, mode := s.mode } ∧ Fewer f3 s.fmt) : Opens tbl c s name at' := by
  refine ⟨s1, h1, hfit, hnew, by unfold top; rw [hstk]; rfl, fun s2 r => ?_⟩
  obtain ⟨f3, h3, h4⟩ := h2 s2 r
  refine ⟨_, h3, ⟨rfl, rfl, r.tmpl.trans htm, r.head.trans hhd, rfl, ?_, ?_, ?_, ?_, h4⟩, rfl⟩
  · exact (r.foster.trans hfit.foster).trans hF.foster.symm
  · exact (r.omitLf.trans hfit.still.omitLf).trans hF.still.omitLf.symm
  · exact (r.slots.trans hfit.slots).trans hF.slots.symm
  · exact (r.switch.trans hfit.still.switch).trans hF.still.switch.symm

/-! ### Names and contexts -/

/-- The tags that are not among flow content, or begin another mode. -/
def plainK : List K := .table :: .body :: .html :: (tableK ++ [.select, .template, .head, .frameset])

/-- The names of elements inside which the context is not that of the parent. -/
def insideNames : List (List Nat) :=
  codes "caption" :: cells ++ [codes "table", codes "colgroup"] ++ sections ++ [codes "tr"] ++ scopes

theorem inside_flow (h : name ∉ insideNames) : inside c name = ⟨.flow, name, c.inP || name == codes "p", c.inA || name == codes "a",
    c.inNobr || name == codes "nobr", c.inForm || name == codes "form"⟩ := by
  unfold insideNames at h
  simp only [List.cons_append, List.mem_cons, List.mem_append, List.not_mem_nil, or_false, not_or] at h
  unfold inside
  rw [if_neg (by simp only [List.mem_cons, not_or]; tauto), if_neg (by tauto), if_neg (by tauto), if_neg (by tauto), if_neg (by tauto),
    if_neg (by tauto)]

theorem is_false {k : K} (h : name ≠ (Tag.k k).name) : (Tag.ofName name).is k = false := by
  cases ht : Tag.ofName name with
  | other s => rfl
  | k t =>
    simp only [Tag.is]
    by_contra hc
    have : t = k := by simpa using hc
    subst this
    rw [← ht, ofName_name] at h
    exact h rfl

theorem name_p : (Tag.k .p).name = codes "p" := by decide +kernel
theorem name_a : (Tag.k .a).name = codes "a" := by decide +kernel
theorem name_nobr : (Tag.k .nobr).name = codes "nobr" := by decide +kernel

theorem Fit.flow (hF : Fit c s) (hc : c.at' = .flow) : Flow s.mode ∧ resetMode s.head s.tmpl s.stack = .ok s.mode ∧ Stops s.stack := by
  have := hF.mode; rw [hc] at this; exact this

/-! ### Flow content -/

/-- An element with the rules of flow content inside. -/
theorem opens_flow (hF : Fit c s) (hc : c.at' = .flow) (hk : (Tag.ofName name).mem plainK = false) (hin : name ∉ insideNames)
    {d : Dom} {b : Bool} {f : List Fmt} {fo : Option Nat}
    (hst : ∀ n, bodyStart (process tbl n) (Tag.ofName name) at' false s =
      .ok { s with dom := d, stack := entry s (Tag.ofName name) at' :: s.stack, framesetOk := b, fmt := f, form := fo })
    (hnew : New s.dom (top s) (.elem .html (Tag.ofName name) at') d)
    (hf : ∀ e, Fmt.el e ∈ f → e.node = s.dom.length ∨ Fmt.el e ∈ s.fmt)
    (ha : (c.inA || name == codes "a") = false → ∀ e ∈ behindMarker f, e.tag.is .a = false)
    (hfo : (c.inForm || name == codes "form") = false → fo = none)
    (hend : ∀ s2 n, s2.stack = entry s (Tag.ofName name) at' :: s.stack → Fewer s2.fmt f → s2.form = fo →
      ∃ f3, bodyEnd (process tbl n) (Tag.ofName name) s2 = .ok { s2 with stack := s.stack, fmt := f3, form := s.form } ∧ Fewer f3 s.fmt) :
    Opens tbl c s name at' := by
  obtain ⟨hm, hreset, hstop⟩ := hF.flow hc
  obtain ⟨e, l, e1, e2, e3, e4, e5, e6⟩ := hF.top_lt
  obtain ⟨n, hn⟩ := hF.emit (tbl := tbl) (.start (Tag.ofName name) at' false)
  have htab : (Tag.ofName name).mem tableK = false := mem_sub (by decide) hk
  refine opens_of hF (s1 := { s with dom := d, stack := entry s (Tag.ofName name) at' :: s.stack, framesetOk := b, fmt := f, form := fo })
    ?_ rfl hnew rfl rfl ?_ ?_
  · rw [hn, flow_start hm htab, hst]
  · rw [inside_flow hin]
    refine fit_push hF ⟨hF.still.switch, hF.still.omitLf⟩ hF.foster hF.slots rfl hnew.len rfl (is_sub (l := plainK) (by decide) hk) hf hfo ?_ ?_
      (fun _ => ha) ?_
    · refine ⟨hm, ?_, ?_, ?_⟩
      · show resetMode s.head s.tmpl (entry s (Tag.ofName name) at' :: s.stack) = _
        rw [reset_push (mem_sub (l := plainK) (by decide) hk) (by rw [e1]; simp)]
        exact hreset
      · have := is_sub (x := .table) (l := plainK) (by decide) hk
        cases ht : Tag.ofName name with
        | other _ => rfl
        | k t => rw [ht] at this; simp only [Tag.is] at this; simp [entry, Entry.isTag]; simpa using this
      · exact .inr hstop
    · intro h
      simp only [Bool.or_eq_false_iff, beq_eq_false_iff_ne] at h
      exact ⟨is_false (by rw [name_p]; exact h.2), .inr h.1⟩
    · intro h
      simp only [Bool.or_eq_false_iff, beq_eq_false_iff_ne] at h
      exact ⟨is_false (by rw [name_nobr]; exact h.2), .inr h.1⟩
  · intro s2 r
    have hstill : Still s2 := ⟨r.switch.trans hF.still.switch, r.omitLf.trans hF.still.omitLf⟩
    have hs2 : s2.stack = entry s (Tag.ofName name) at' :: s.stack := r.stack
    have hm2 : s2.mode = s.mode := r.mode
    obtain ⟨f3, h3, h4⟩ := hend s2 _ hs2 r.fmt r.form
    refine ⟨f3, ?_, h4⟩
    rw [emit_html hstill hs2 rfl, flow_end (by rw [hm2]; exact hm) (mem_sub (by decide) hk), h3, ← hm2]

/-- An element that is put on the stack and taken from it. -/
theorem opens_simple (hF : Fit c s) (hc : c.at' = .flow) (hk : (Tag.ofName name).mem plainK = false) (hin : name ∉ insideNames)
    (ha : name ≠ codes "a") {d : Dom} {b : Bool}
    (hst : ∀ n, bodyStart (process tbl n) (Tag.ofName name) at' false s =
      .ok { s with dom := d, stack := entry s (Tag.ofName name) at' :: s.stack, framesetOk := b })
    (hnew : New s.dom (top s) (.elem .html (Tag.ofName name) at') d)
    (hend : ∀ s2 n, s2.stack = entry s (Tag.ofName name) at' :: s.stack →
      bodyEnd (process tbl n) (Tag.ofName name) s2 = .ok { s2 with stack := s.stack }) : Opens tbl c s name at' := by
  refine opens_flow hF hc hk hin (f := s.fmt) (fo := s.form) hst hnew (fun e he => .inr he) (fun h => ?_) (fun h => ?_)
    (fun s2 n h1 h2 h3 => ⟨s2.fmt, ?_, h2⟩)
  · simp only [Bool.or_eq_false_iff] at h
    exact hF.a hc h.1
  · simp only [Bool.or_eq_false_iff] at h
    exact hF.form h.1
  · rw [hend s2 n h1, ← h3]

theorem top_insert (hF : Fit c s) (t : Tag) (at' : List At) : ∃ d, insertHtml s t at' = .ok { s with dom := d, stack := entry s t at' :: s.stack } ∧
    New s.dom (top s) (.elem .html t at') d := by
  obtain ⟨e, l, e1, e2, e3, e4, e5, e6⟩ := hF.top_lt
  obtain ⟨d, h1, h2⟩ := insert_eq e1 hF.foster e3 t at'
  exact ⟨d, h1, by rw [e2]; exact h2⟩

theorem top_insertPop (hF : Fit c s) (t : Tag) (at' : List At) : ∃ d, insertPop s t at' = .ok { s with dom := d } ∧
    New s.dom (top s) (.elem .html t at') d := by
  obtain ⟨e, l, e1, e2, e3, e4, e5, e6⟩ := hF.top_lt
  obtain ⟨d, h1, h2⟩ := insertPop_eq e1 hF.foster e3 t at'
  exact ⟨d, h1, by rw [e2]; exact h2⟩

theorem end_p {e : Entry} {l : List Entry} (hs : s.stack = e :: l) (h : e.is .p = true) :
    bodyEnd re (.k .p) s = .ok { s with stack := l } := by
  have h1 : inScope buttonScope (·.is .p) s.stack = .ok true := by rw [hs]; simp [inScope, h]
  have h2 : e.tag.is .p = true := by simp [Entry.is] at h; exact h.2
  have h3 : s.implied (·.tag.is .p) = s := by
    unfold S.implied; rw [hs, implied_none _ (.inl h2), ← hs]
  show (do
    let s ← if ← inScope buttonScope (·.is .p) s.stack then .ok s else insertHtml s (.k .p) []
    closeP s : R S) = _
  rw [h1]
  show closeP s = _
  unfold closeP
  simp only [h3, bind, Except.bind, cur, hs, S.popUntil, Verif.Model.HtmlTree.popUntil, h, if_true]

theorem end_li {e : Entry} {l : List Entry} (hs : s.stack = e :: l) (h : e.is .li = true) :
    bodyEnd re (.k .li) s = .ok { s with stack := l } := by
  have h1 : inScope listScope (·.is .li) s.stack = .ok true := by rw [hs]; simp [inScope, h]
  have h2 : e.tag.is .li = true := by simp [Entry.is] at h; exact h.2
  have h3 : s.implied (·.tag.is .li) = s := by
    unfold S.implied; rw [hs, implied_none _ (.inl h2), ← hs]
  show (do
    if ← inScope listScope (·.is .li) s.stack then
      let s := s.implied (·.tag.is .li)
      let _ ← cur s
      .ok (s.popUntil (·.is .li))
    else .ok s : R S) = _
  rw [h1]
  simp only [h3, bind, Except.bind, cur, hs, S.popUntil, Verif.Model.HtmlTree.popUntil, h, if_true]

theorem end_dd {e e2 : Entry} {l : List Entry} {k : K} (hk : k ∈ [K.dd, .dt]) (hs : s.stack = e :: e2 :: l) (h : e.isTag (.k k) = true)
    (h2 : e2.isTag (.k k) = false) (h4 : special e2 = true) :
    bodyEnd re (.k k) s = .ok { s with stack := e2 :: l } := by
  have h1 : inScope defaultScope (·.isTag (.k k)) s.stack = .ok true := by rw [hs]; simp [inScope, h]
  have h3 : s.implied (·.isTag (.k k)) = s := by
    unfold S.implied; rw [hs, implied_none _ (.inl h), ← hs]
  have : bodyEnd re (.k k) s = (do
    if ← inScope defaultScope (·.isTag (.k k)) s.stack then
      let s := s.implied (·.isTag (.k k))
      let _ ← cur s
      let s := s.popUntil (·.isTag (.k k))
      otherEnd s (.k k) s.stack
    else .ok s : R S) := by cases k <;> first | rfl | exact absurd hk (by decide)
  rw [this, h1]
  simp [h3, bind, Except.bind, cur, hs, S.popUntil, Verif.Model.HtmlTree.popUntil, h, otherEnd, h2, h4]

theorem isTag_entry (s : S) (t : Tag) (at' : List At) : (entry s t at').isTag t = true := by simp [entry, Entry.isTag]

/-! ### Categories -/

theorem opens_block (hF : Fit c s) (hc : c.at' = .flow) (hn : name ∈ blocks) (hp : c.inP = false) : Opens tbl c s name at' := by
  obtain ⟨k, hk, he⟩ := mem_tags (l := blockTags) (by decide +kernel) hn
  obtain ⟨d, h1, h2⟩ := top_insert hF (Tag.ofName name) at'
  refine opens_simple hF hc ?_ ?_ ?_ (d := d) (b := s.framesetOk) ?_ h2 ?_
  · rw [he]; exact (by decide : ∀ k ∈ blockTags, (Tag.k k).mem plainK = false) k hk
  · exact (by decide +kernel : ∀ n ∈ blocks, n ∉ insideNames) name hn
  · exact (by decide +kernel : ∀ n ∈ blocks, n ≠ codes "a") name hn
  · intro n
    rw [he] at h1 ⊢
    rw [start_block hk, closeP_none (hF.p hp)]
    exact h1
  · intro s2 n hs
    rw [he] at hs ⊢
    by_cases hkp : k = .p
    · subst hkp
      exact end_p hs (by simp [entry, Entry.is, Tag.is])
    · obtain ⟨a1, a2, a3, a4⟩ := scoped_end (p := (·.isTag (.k k))) hs (isTag_entry _ _ _)
        (by simp only [entry, Entry.isIn, Tag.mem]
            have := (by decide : ∀ k ∈ blockTags, k ≠ K.p → [K.dd, .dt, .li, .optgroup, .option, .p, .rb, .rp, .rt, .rtc].contains k = false) k hk hkp
            rw [this]; rfl) defaultScope
      rw [end_block hk hkp, a1]
      simp only [bind, Except.bind, if_true, a2, a3, a4]

theorem opens_heading (hF : Fit c s) (hc : c.at' = .flow) (hn : name ∈ Verif.Spec.HtmlDoc.headings) (hp : c.inP = false)
    (hh : c.parent ∉ Verif.Spec.HtmlDoc.headings) : Opens tbl c s name at' := by
  obtain ⟨k, hk, he⟩ := mem_tags (l := headings) (by decide +kernel) hn
  obtain ⟨d, h1, h2⟩ := top_insert hF (Tag.ofName name) at'
  refine opens_simple hF hc ?_ ?_ ?_ (d := d) (b := s.framesetOk) ?_ h2 ?_
  · rw [he]; exact (by decide : ∀ k ∈ headings, (Tag.k k).mem plainK = false) k hk
  · exact (by decide +kernel : ∀ n ∈ Verif.Spec.HtmlDoc.headings, n ∉ insideNames) name hn
  · exact (by decide +kernel : ∀ n ∈ Verif.Spec.HtmlDoc.headings, n ≠ codes "a") name hn
  · intro n
    obtain ⟨e, l, e1, e2, e3, e4, e5, e6⟩ := hF.top_lt
    have hnot : e.isIn headings = false := by
      unfold Entry.isIn
      rw [e6, mem_false (l := headings) (L := Verif.Spec.HtmlDoc.headings) (by decide +kernel) hh]; simp
    rw [he] at h1 ⊢
    rw [start_heading hk, closeP_none (hF.p hp)]
    simp only [bind, Except.bind, cur, e1, hnot, Bool.false_eq_true, if_false]
    rw [h1, e1]
  · intro s2 n hs
    rw [he] at hs ⊢
    obtain ⟨a1, a2, a3, a4⟩ := scoped_end (p := (·.isIn headings)) hs (by simpa [entry, Entry.isIn, Tag.mem] using hk)
      (by simp only [entry, Entry.isIn, Tag.mem]
          have := (by decide : ∀ k ∈ headings, [K.dd, .dt, .li, .optgroup, .option, .p, .rb, .rp, .rt, .rtc].contains k = false) k hk
          rw [this]; rfl) defaultScope
    rw [end_heading hk, a1]
    simp only [bind, Except.bind, if_true, a2, a3, a4]

theorem opens_other (hF : Fit c s) (hc : c.at' = .flow) (hn : name ∉ treated) : Opens tbl c s name at' := by
  obtain ⟨d, h1, h2⟩ := top_insert hF (Tag.ofName name) at'
  have ht : (Tag.ofName name).mem treatedK = false := mem_false (L := treated) (by decide +kernel) hn
  refine opens_simple hF hc ?_ ?_ ?_ (d := d) (b := s.framesetOk) ?_ h2 ?_
  · exact mem_sub (by decide) ht
  · exact fun h => hn ((by decide +kernel : ∀ n ∈ insideNames, n ∈ treated) name h)
  · intro h; rw [h] at hn; exact hn (by decide +kernel)
  · intro n
    rw [start_other ht, hF.reopen]
    exact h1
  · intro s2 n hs
    rw [end_other ht, other_end hs (isTag_entry _ _ _)]

theorem opens_li (hF : Fit c s) (hc : c.at' = .flow) (hp : c.inP = false) (hh : c.parent ≠ codes "li") : Opens tbl c s (codes "li") at' := by
  have he : Tag.ofName (codes "li") = .k .li := by decide +kernel
  obtain ⟨d, h1, h2⟩ := top_insert hF (Tag.ofName (codes "li")) at'
  obtain ⟨e, l, e1, e2, e3, e4, e5, e6⟩ := hF.top_lt
  refine opens_simple hF hc (by decide +kernel) (by decide +kernel) (by decide +kernel) (d := d) (b := false) ?_ h2 ?_
  · intro n
    have hnot : e.is .li = false := by
      unfold Entry.is
      rw [e6, is_false (by rw [show (Tag.k .li).name = codes "li" by decide +kernel]; exact hh)]; simp
    rw [he] at h1 ⊢
    show (do
      let s := { s with framesetOk := false }
      let s' ← liStart s (.k .li) at'
      if liDone s then .ok s'
      else bodyStart2 (process tbl n) (.k .li) at' false s' : R S) = _
    have hins : insertHtml { s with framesetOk := false } (.k .li) at' = .ok { s with dom := d, stack := entry s (.k .li) at' :: s.stack, framesetOk := false } := by
      have hF' : Fit c { s with framesetOk := false } := hF.rest ⟨rfl, rfl, rfl, rfl, rfl, rfl, rfl, rfl, rfl, .refl _⟩ (Nat.le_refl _)
      unfold insertHtml insertForeign at h1 ⊢
      simp only [cur, e1, bind, Except.bind, create, place, hF.foster, Bool.false_and, Bool.false_eq_true, if_false] at h1 ⊢
      cases hl : link (s.dom ++ [⟨.elem .html (.k .li) at', none, []⟩]) (.last e.node) s.dom.length with
      | error x => rw [hl] at h1; cases h1
      | ok d' =>
        rw [hl] at h1
        injection h1 with h1
        have : d' = d := congrArg S.dom h1
        subst this
        rfl
    by_cases hb : e.isIn [.address, .div, .p] = true
    · have hd : liDone { s with framesetOk := false } = false := by
        unfold liDone; simp only [e1]
        unfold Entry.isIn at hb ⊢
        simp only [Bool.and_eq_true] at hb
        have : e.tag.mem [.li, .address, .div, .p] = true := by
          cases ht : e.tag with
          | other _ => rw [ht] at hb; cases hb.2
          | k t => rw [ht] at hb; simp only [Tag.mem] at hb ⊢; rw [List.contains_cons, hb.2, Bool.or_true]
        rw [this, hb.1]; rfl
      have hl : liStart { s with framesetOk := false } (.k .li) at' = .ok { s with framesetOk := false } := by
        unfold liStart; simp only [e1, hnot, hb, Bool.false_eq_true, if_false, if_true]
      simp only [hl, bind, Except.bind, hd, Bool.false_eq_true, if_false]
      have hF' : Fit c { s with framesetOk := false } := hF.rest ⟨rfl, rfl, rfl, rfl, rfl, rfl, rfl, rfl, rfl, .refl _⟩ (Nat.le_refl _)
      have : bodyStart2 (process tbl n) (.k .li) at' false { s with framesetOk := false } = (do
        let s ← reconstruct { s with framesetOk := false }
        insertHtml s (.k .li) at') := rfl
      rw [this, hF'.reopen]
      exact hins
    · have hb : e.isIn [.address, .div, .p] = false := by simpa using hb
      have hd : liDone { s with framesetOk := false } = true := by
        unfold liDone; simp only [e1]
        unfold Entry.isIn at hb ⊢
        unfold Entry.is at hnot
        rw [e5] at hb hnot ⊢
        have : e.tag.mem [.li, .address, .div, .p] = false := by
          cases ht : e.tag with
          | other _ => rfl
          | k t =>
            rw [ht] at hb hnot
            simp only [Tag.mem, Tag.is, beq_self_eq_true, Bool.true_and] at hb hnot ⊢
            rw [List.contains_cons, hb, hnot]; rfl
        rw [this]; rfl
      have hl : liStart { s with framesetOk := false } (.k .li) at' = .ok { s with dom := d, stack := entry s (.k .li) at' :: s.stack, framesetOk := false } := by
        unfold liStart; simp only [e1, hnot, hb, Bool.false_eq_true, if_false]
        rw [← e1, closeP_none (s := { s with framesetOk := false }) (hF.p hp)]
        exact hins
      simp only [hl, bind, Except.bind, hd, if_true]
  · intro s2 n hs
    rw [he] at hs ⊢
    exact end_li hs (by simp [entry, Entry.is, Tag.is])

end Verif.Proof.HtmlDoc
