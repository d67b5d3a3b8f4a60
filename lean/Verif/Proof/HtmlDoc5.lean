import Verif.Proof.HtmlDoc4
/- Elements with further rules, among flow content. -/
namespace Verif.Proof.HtmlDoc
open Verif.Model.HtmlTree
open Verif.Spec.HtmlTree (data)
open Verif.Spec.HtmlAtom (codes)
open Verif.Spec.HtmlDoc (Where Ctx inside isText blocks formatting scopes voids sections cells treated)
variable {tbl : List Nat → Bool} {re : Re} {s : S} {c : Ctx} {name : List Nat} {at' : List At}

theorem Fit.same (hF : Fit c s) (b : Bool) : Fit c { s with framesetOk := b } :=
  hF.rest ⟨rfl, rfl, rfl, rfl, rfl, rfl, rfl, rfl, rfl, .refl _⟩ (Nat.le_refl _)

theorem opens_dd (hF : Fit c s) (hc : c.at' = .flow) (hn : name ∈ [codes "dd", codes "dt"]) (hp : c.inP = false)
    (hh : c.parent = codes "dl") : Opens tbl c s name at' := by
  obtain ⟨k, hk, he⟩ := mem_tags (l := [.dd, .dt]) (by decide +kernel) hn
  obtain ⟨d, h1, h2⟩ := top_insert (hF.same false) (Tag.ofName name) at'
  obtain ⟨e, l, e1, e2, e3, e4, e5, e6⟩ := hF.top_lt
  rw [hh, show Tag.ofName (codes "dl") = .k .dl by decide +kernel] at e6
  refine opens_simple hF hc ?_ ?_ ?_ (d := d) (b := false) ?_ h2 ?_
  · rw [he]; exact (by decide : ∀ k ∈ [K.dd, .dt], (Tag.k k).mem plainK = false) k hk
  · exact (by decide +kernel : ∀ n ∈ [codes "dd", codes "dt"], n ∉ insideNames) name hn
  · exact (by decide +kernel : ∀ n ∈ [codes "dd", codes "dt"], n ≠ codes "a") name hn
  · intro n
    rw [he] at h1 ⊢
    have hst : bodyStart (process tbl n) (.k k) at' false s = (do
      let s := { s with framesetOk := false }
      let s ← ddLoop s s.stack
      let s ← closePIn s
      insertHtml s (.k k) at' : R S) := by cases k <;> first | rfl | exact absurd hk (by decide)
    have hl : ddLoop { s with framesetOk := false } s.stack = .ok { s with framesetOk := false } := by
      rw [e1]
      simp [ddLoop, Entry.is, Entry.isIn, special, e5, e6, Tag.is, Tag.mem, specials]
    rw [hst]
    simp only [hl, bind, Except.bind]
    rw [closeP_none (s := { s with framesetOk := false }) (hF.p hp)]
    exact h1
  · intro s2 n hs
    rw [he] at hs ⊢
    rw [e1] at hs ⊢
    refine end_dd hk hs (isTag_entry _ _ _) ?_ ?_
    · rcases List.mem_cons.mp hk with rfl | hk
      · simp [Entry.isTag, e6]
      · rw [List.mem_singleton.mp hk]; simp [Entry.isTag, e6]
    · simp [special, e5, e6, Tag.mem, specials]

theorem opens_form (hF : Fit c s) (hc : c.at' = .flow) (hp : c.inP = false) (hfm : c.inForm = false) :
    Opens tbl c s (codes "form") at' := by
  have he : Tag.ofName (codes "form") = .k .form := by decide +kernel
  obtain ⟨d, h1, h2⟩ := top_insert hF (Tag.ofName (codes "form")) at'
  obtain ⟨e, l, e1, e2, e3, e4, e5, e6⟩ := hF.top_lt
  refine opens_flow hF hc (by decide +kernel) (by decide +kernel) (d := d) (b := s.framesetOk) (f := s.fmt)
    (fo := some s.dom.length) ?_ h2 (fun e he => .inr he) ?_ ?_ ?_
  · intro n
    rw [he] at h1 ⊢
    show (if s.form.isSome && !has s .template then .ok s
      else do
        let s ← closePIn s
        let s ← insertHtml s (.k .form) at'
        let e ← cur s
        .ok (if has s .template then s else { s with form := some e.node }) : R S) = _
    rw [hF.form hfm]
    simp only [Option.isSome_none, Bool.false_and, Bool.false_eq_true, if_false, closeP_none (hF.p hp), bind, Except.bind, h1, cur]
    have : has { s with dom := d, stack := entry s (.k .form) at' :: s.stack } .template = false := by
      have := hF.noTemplate
      unfold has at this ⊢
      rw [List.any_cons, this]; rfl
    rw [this]
    rfl
  · intro h
    simp only [Bool.or_eq_false_iff] at h
    exact hF.a hc h.1
  · intro h
    exact absurd h (by rw [hfm]; decide +kernel)
  · intro s2 n hs hf hfo
    refine ⟨s2.fmt, ?_, hf⟩
    rw [he] at hs ⊢
    have hno : has s2 .template = false := by
      have := hF.noTemplate
      unfold has at this ⊢
      rw [hs, List.any_cons, this]; rfl
    show (if has s2 .template then do
        if ← inScope defaultScope (·.is .form) s2.stack then
          let s := s2.implied
          let _ ← cur s
          .ok (s.popUntil (·.is .form))
        else .ok s2
      else
        match s2.form with
        | none => .ok s2
        | some n => do
          let s := { s2 with form := none }
          if ← inScope defaultScope (·.node == n) s.stack then
            let s := s.implied
            let _ ← cur s
            removeNode s n
          else .ok s : R S) = _
    rw [hno, hfo]
    simp only [Bool.false_eq_true, if_false]
    have hs' : ({ s2 with form := none } : S).stack = entry s (.k .form) at' :: s.stack := hs
    obtain ⟨a1, a2, a3, a4⟩ := scoped_end (s := { s2 with form := none }) (p := fun e => e.node == s.dom.length) hs' (by simp [entry])
      rfl defaultScope
    have a1' : inScope defaultScope (fun e => e.node == s.dom.length) s2.stack = .ok true := a1
    have hrem : removeNode { s2 with form := none } s.dom.length = .ok { s2 with stack := s.stack, form := none } := by
      unfold removeNode hasNode
      simp [hs, entry]
    rw [hF.form hfm]
    simp only [a1', bind, Except.bind, if_true, a2, a3]
    exact hrem

/-! ### Formatting elements -/

theorem above_top {e : Entry} {l : List Entry} (h : ∀ x ∈ l, x.node ≠ e.node) : above e.node (e :: l) = [] := by
  unfold above
  rw [List.reverse_cons, List.dropWhile_append_of_pos]
  · simp
  · intro x hx
    simpa using h x (by simpa using hx)

theorem fmt_end {k : K} (hk : k ∈ K.a :: .nobr :: fmtTags) {E : Entry} {l : List Entry} {f g : List Fmt} (hs : s.stack = E :: l)
    (hE : E.isTag (.k k) = true) (hl : ∀ x ∈ l, x.node ≠ E.node) (hf : Fewer s.fmt (.el E :: f)) (hfg : Fewer f g)
    (hg : ∀ x, Fmt.el x ∈ g → x.node ≠ E.node) :
    ∃ f3, bodyEnd re (.k k) s = .ok { s with stack := l, fmt := f3 } ∧ Fewer f3 g := by
  rw [end_fmt hk]
  unfold adoption
  have hc : cur s = .ok E := by unfold cur; rw [hs]
  have htag : E.tag = .k k := by simp [Entry.isTag] at hE; exact hE.2
  generalize hfm : s.fmt = fm at hf
  cases hf with
  | keep _ hf =>
    rename_i f2
    have hin : inFmt E.node s.fmt = true := by rw [hfm]; simp [inFmt]
    refine ⟨f2, ?_, hf.trans hfg⟩
    have hfind : findFmt (.k k) s.fmt = some E := by rw [hfm]; simp [findFmt, htag]
    have hnode : hasNode s E.node = true := by unfold hasNode; rw [hs]; simp
    have hsc : inScope defaultScope (·.node == E.node) s.stack = .ok true := by rw [hs]; simp [inScope]
    have hab : above E.node s.stack = [] := by rw [hs]; exact above_top hl
    have hdrop : dropFmt E.node s.fmt = f2 := by rw [hfm]; simp [dropFmt]
    have hpop : s.popUntil (·.node == E.node) = { s with stack := l } := by
      unfold S.popUntil; rw [hs]; simp [Verif.Model.HtmlTree.popUntil]
    have hout : outerLoop (.k k) 8 s = .ok (false, { s with stack := l, fmt := f2 }) := by
      unfold outerLoop
      simp only [hfind, hnode, Bool.not_true, Bool.false_eq_true, if_false, hsc, bind, Except.bind, if_true, hc, hab, List.find?_nil, hpop,
        hdrop]
    rw [hfm] at hin
    simp only [hc, bind, Except.bind, hE, hin, Bool.not_true, Bool.and_false, Bool.false_eq_true, if_false, hout]
  | drop _ hf =>
    refine ⟨s.fmt, ?_, by rw [hfm]; exact hf.trans hfg⟩
    have hin : inFmt E.node s.fmt = false := by
      rw [hfm]
      unfold inFmt
      rw [List.any_eq_false]
      intro x hx
      cases x with
      | marker => simp
      | el x => simpa using hg x ((hf.trans hfg).mem hx)
    rw [hfm] at hin
    simp [hc, bind, Except.bind, hE, hin, pop, hs]

/-- A formatting element. -/
theorem opens_fmt (hF : Fit c s) (hc : c.at' = .flow) {k : K} (hk : k ∈ K.a :: .nobr :: fmtTags) (he : Tag.ofName name = .k k)
    (hin : name ∉ insideNames)
    (hst : ∀ n, bodyStart (process tbl n) (.k k) at' false s = insertFmtEl s (.k k) at') : Opens tbl c s name at' := by
  obtain ⟨d, h1, h2⟩ := top_insert hF (Tag.ofName name) at'
  obtain ⟨e, l, e1, e2, e3, e4, e5, e6⟩ := hF.top_lt
  obtain ⟨f, f1, f2⟩ := push_fewer { s with dom := d, stack := entry s (Tag.ofName name) at' :: s.stack } (entry s (Tag.ofName name) at')
  have f2 : Fewer f s.fmt := f2
  have hon : ∀ x, Fmt.el x ∈ s.fmt → x.node ≠ s.dom.length := by
    intro x hx
    have := hF.fmtOn x hx
    unfold hasNode at this
    obtain ⟨y, hy, hxy⟩ := List.any_eq_true.mp this
    have := (hF.ents y hy).2
    simp at hxy
    omega
  refine opens_flow hF hc ?_ hin (d := d) (b := s.framesetOk) (f := .el (entry s (Tag.ofName name) at') :: f)
    (fo := s.form) ?_ h2 ?_ ?_ ?_ ?_
  · rw [he]; exact (by decide : ∀ k ∈ K.a :: .nobr :: fmtTags, (Tag.k k).mem plainK = false) k hk
  · intro n
    have hst := hst n
    rw [← he] at hst
    rw [hst]
    unfold insertFmtEl
    simp only [h1, bind, Except.bind, cur, f1]
  · intro x hx
    rcases List.mem_cons.mp hx with hx | hx
    · injection hx with hx; left; rw [hx]; rfl
    · exact .inr (f2.mem hx)
  · intro h x hx
    simp only [Bool.or_eq_false_iff, beq_eq_false_iff_ne] at h
    simp only [behindMarker, List.mem_cons] at hx
    rcases hx with rfl | hx
    · exact is_false (by rw [name_a]; exact h.2)
    · exact hF.a hc h.1 x (f2.behind hx)
  · intro h
    simp only [Bool.or_eq_false_iff] at h
    exact hF.form h.1
  · intro s2 n hs hf hfo
    rw [he] at hs hf ⊢
    obtain ⟨f3, h3, h4⟩ := fmt_end (re := process tbl n) hk hs (isTag_entry _ _ _)
      (fun x hx => by have := (hF.ents x hx).2; show x.node ≠ s.dom.length; omega) hf f2 hon
    exact ⟨f3, by rw [h3, ← hfo], h4⟩

theorem opens_format (hF : Fit c s) (hc : c.at' = .flow) (hn : name ∈ formatting) : Opens tbl c s name at' := by
  obtain ⟨k, hk, he⟩ := mem_tags (l := fmtTags) (by decide +kernel) hn
  refine opens_fmt hF hc (List.mem_cons_of_mem _ (List.mem_cons_of_mem _ hk)) he
    ((by decide +kernel : ∀ n ∈ formatting, n ∉ insideNames) name hn) (fun n => ?_)
  rw [start_fmt hk, hF.reopen]; rfl

theorem opens_a (hF : Fit c s) (hc : c.at' = .flow) (ha : c.inA = false) : Opens tbl c s (codes "a") at' := by
  refine opens_fmt hF hc (k := .a) (by decide) (by decide +kernel) (by decide +kernel) (fun n => ?_)
  have hnone : ((behindMarker s.fmt).find? fun e => e.tag.is .a) = none := by
    rw [List.find?_eq_none]
    intro x hx
    rw [hF.a hc ha x hx]; simp
  show (match (behindMarker s.fmt).find? fun e => e.tag.is .a with
    | some x => do
      let (other, s) ← adoption s (.k .a)
      if other then .ok s
      else do
        let s := { s with fmt := dropFmt x.node s.fmt }
        let s ← if hasNode s x.node then removeNode s x.node else .ok s
        let s ← reconstruct s
        insertFmtEl s (.k .a) at'
    | none => do
      let s ← reconstruct s
      insertFmtEl s (.k .a) at' : R S) = _
  rw [hnone, hF.reopen]; rfl

theorem opens_nobr (hF : Fit c s) (hc : c.at' = .flow) (ha : c.inNobr = false) : Opens tbl c s (codes "nobr") at' := by
  refine opens_fmt hF hc (k := .nobr) (by decide) (by decide +kernel) (by decide +kernel) (fun n => ?_)
  show (do
    let s ← reconstruct s
    if ← inScope defaultScope (·.is .nobr) s.stack then
      let (other, s) ← adoption s (.k .nobr)
      if other then .ok s
      else do
        let s ← reconstruct s
        insertFmtEl s (.k .nobr) at'
    else insertFmtEl s (.k .nobr) at' : R S) = _
  rw [hF.reopen]
  simp only [bind, Except.bind, hF.nobr ha, Bool.false_eq_true, if_false]

/-! ### Elements that begin a scope -/

theorem opens_scope (hF : Fit c s) (hc : c.at' = .flow) (hn : name ∈ scopes) : Opens tbl c s name at' := by
  obtain ⟨k, hk, he⟩ := mem_tags (l := [.applet, .marquee, .object]) (by decide +kernel) hn
  obtain ⟨d, h1, h2⟩ := top_insert hF (Tag.ofName name) at'
  obtain ⟨hm, hreset, hstop⟩ := hF.flow hc
  obtain ⟨e, l, e1, e2, e3, e4, e5, e6⟩ := hF.top_lt
  obtain ⟨n, hem⟩ := hF.emit (tbl := tbl) (.start (Tag.ofName name) at' false)
  have hpl : (Tag.ofName name).mem plainK = false := by
    rw [he]; exact (by decide : ∀ k ∈ [K.applet, .marquee, .object], (Tag.k k).mem plainK = false) k hk
  have hin : inside c name = ⟨.flow, name, false, false, false, c.inForm⟩ := by
    unfold inside
    have := (by decide +kernel : ∀ n ∈ scopes, n ∉ codes "caption" :: cells ∧ n ≠ codes "table" ∧ n ≠ codes "colgroup" ∧ n ∉ sections ∧
      n ≠ codes "tr") name hn
    rw [if_neg this.1, if_neg this.2.1, if_neg this.2.2.1, if_neg this.2.2.2.1, if_neg this.2.2.2.2, if_pos hn]
  have hsc : defaultScope (entry s (Tag.ofName name) at') = true := by
    rw [he]
    simp only [defaultScope, entry, Tag.mem]
    exact (by decide : ∀ k ∈ [K.applet, .marquee, .object],
      [K.applet, .caption, .html, .table, .td, .th, .marquee, .object, .template].contains k = true) k hk
  refine opens_of hF (s1 := { s with dom := d, stack := entry s (Tag.ofName name) at' :: s.stack, framesetOk := false, fmt := .marker :: s.fmt })
    ?_ rfl h2 rfl rfl ?_ ?_
  · rw [hem, flow_start hm (mem_sub (by decide) hpl)]
    rw [he] at h1 ⊢
    rw [start_scope hk, hF.reopen]
    simp only [bind, Except.bind, h1, pushMarker]
  · rw [hin]
    refine fit_push hF ⟨hF.still.switch, hF.still.omitLf⟩ hF.foster hF.slots rfl h2.len rfl (is_sub (l := plainK) (by decide) hpl)
      (fun e he => .inr (by simpa using he)) hF.form ?_ ?_ (fun _ _ e he => by simp [behindMarker] at he) ?_
    · refine ⟨hm, ?_, ?_, .inr hstop⟩
      · show resetMode s.head s.tmpl (entry s (Tag.ofName name) at' :: s.stack) = _
        rw [reset_push (mem_sub (l := plainK) (by decide) hpl) (by rw [e1]; simp)]
        exact hreset
      · rw [he]
        rcases List.mem_cons.mp hk with rfl | hk
        · rfl
        rcases List.mem_cons.mp hk with rfl | hk
        · rfl
        · rw [List.mem_singleton.mp hk]; rfl
    · intro _
      refine ⟨?_, .inl (by unfold buttonScope; rw [hsc]; rfl)⟩
      rw [he]; exact (by decide : ∀ k ∈ [K.applet, .marquee, .object], (Tag.k k).is .p = false) k hk
    · intro _
      refine ⟨?_, .inl hsc⟩
      rw [he]; exact (by decide : ∀ k ∈ [K.applet, .marquee, .object], (Tag.k k).is .nobr = false) k hk
  · intro s2 r
    have hstill : Still s2 := ⟨r.switch.trans hF.still.switch, r.omitLf.trans hF.still.omitLf⟩
    have hs2 : s2.stack = entry s (Tag.ofName name) at' :: s.stack := r.stack
    have hm2 : s2.mode = s.mode := r.mode
    have hf2 : s2.fmt = .marker :: s.fmt := r.fmt.marker
    have hfo : s2.form = s.form := r.form
    refine ⟨s.fmt, ?_, .refl _⟩
    rw [emit_html hstill hs2 rfl, flow_end (by rw [hm2]; exact hm) (mem_sub (by decide) hpl)]
    rw [he] at hs2 ⊢
    obtain ⟨a1, a2, a3, a4⟩ := scoped_end (p := (·.isTag (.k k))) hs2 (isTag_entry _ _ _)
      (by simp only [entry, Entry.isIn, Tag.mem]
          have := (by decide : ∀ k ∈ [K.applet, .marquee, .object], [K.dd, .dt, .li, .optgroup, .option, .p, .rb, .rp, .rt, .rtc].contains k = false) k hk
          rw [this]; rfl) defaultScope
    rw [end_scope hk, a1]
    simp only [bind, Except.bind, if_true, a2, a3, a4, S.clearFmt, hf2, clearMarker, ← hm2, ← hfo]

/-! ### Void elements -/

theorem void_run (hF : Fit c s) (hc : c.at' = .flow) (hn : name ∈ voids) (hp : name = codes "hr" → c.inP = false) :
    ∃ s1, emit tbl (.start (Tag.ofName name) at' false) s = .ok s1 ∧ Rest s s1 ∧ New s.dom (top s) (.elem .html (Tag.ofName name) at') s1.dom := by
  obtain ⟨hm, -, -⟩ := hF.flow hc
  obtain ⟨d, h1, h2⟩ := top_insertPop hF (Tag.ofName name) at'
  obtain ⟨n, hem⟩ := hF.emit (tbl := tbl) (.start (Tag.ofName name) at' false)
  have htab : (Tag.ofName name).mem tableK = false := (by decide +kernel : ∀ n ∈ voids, (Tag.ofName n).mem tableK = false) name hn
  suffices h : ∃ b, bodyStart (process tbl n) (Tag.ofName name) at' false s = .ok { s with dom := d, framesetOk := b } by
    obtain ⟨b, h⟩ := h
    exact ⟨{ s with dom := d, framesetOk := b }, by rw [hem, flow_start hm htab, h], ⟨rfl, rfl, rfl, rfl, rfl, rfl, rfl, rfl, rfl, .refl _⟩, h2⟩
  have hcase : Tag.ofName name ∈ ([K.base, .basefont, .bgsound, .link, .metaEl, .param, .source, .track].map Tag.k) ∨
      Tag.ofName name ∈ ([K.area, .br, .embed, .img, .keygen, .wbr].map Tag.k) ∨ Tag.ofName name = .k .input ∨
      (Tag.ofName name = .k .hr ∧ name = codes "hr") := (by decide +kernel : ∀ name ∈ voids,
      Tag.ofName name ∈ ([K.base, .basefont, .bgsound, .link, .metaEl, .param, .source, .track].map Tag.k) ∨
      Tag.ofName name ∈ ([K.area, .br, .embed, .img, .keygen, .wbr].map Tag.k) ∨ Tag.ofName name = .k .input ∨
      (Tag.ofName name = .k .hr ∧ name = codes "hr")) name hn
  rcases hcase with hk | hk | hk | ⟨hk, hhr⟩
  · obtain ⟨k, hk, he⟩ := List.mem_map.mp hk
    refine ⟨s.framesetOk, ?_⟩
    rw [← he] at h1 ⊢
    rw [start_void1 hk, h1]
  · obtain ⟨k, hk, he⟩ := List.mem_map.mp hk
    refine ⟨false, ?_⟩
    rw [← he] at h1 ⊢
    rw [start_void2 hk, hF.reopen]
    simp only [bind, Except.bind, h1]
  · refine ⟨if hiddenInput at' then s.framesetOk else false, ?_⟩
    rw [hk] at h1 ⊢
    show (do
      let s ← reconstruct s
      let s ← insertPop s (.k .input) at'
      .ok (if hiddenInput at' then s else { s with framesetOk := false }) : R S) = _
    rw [hF.reopen]
    simp only [bind, Except.bind, h1]
    split <;> simp [*]
  · refine ⟨false, ?_⟩
    rw [hk] at h1 ⊢
    show (do
      let s ← closePIn s
      let s ← insertPop s (.k .hr) at'
      .ok { s with framesetOk := false } : R S) = _
    rw [closeP_none (hF.p (hp hhr))]
    simp only [bind, Except.bind, h1]

end Verif.Proof.HtmlDoc
