import Verif.Proof.HtmlTreeSafe6
/- The other insertion modes, and all tokens, for C105. -/
namespace Verif.Proof.HtmlTree.Safe
open Verif.Model.HtmlTree
open Verif.Proof.HtmlTree.Forest (Kept Wf Deep Elem tagAt els Has)

variable {q : Prop} {s : S} {z : Zone} {re : Re}

/-! "In select". -/

/-- A state in a `select`. -/
def SelSt (q : Prop) (s : S) : Prop := Core q s ∧ Sel s.stack ∧ (s.mode = .inSelect ∨ s.mode = .inSelectInTable)

theorem SelSt.fits (h : SelSt q s) : Fits s.dom s.mode s.stack s.fmt s.head := by
  rcases h.2.2 with e | e <;> rw [e] <;> exact h.2.1

theorem SelSt.inv (h : SelSt q s) : Inv q s := ⟨h.1, h.fits.mfit⟩

theorem Sel.rooted {st : List Entry} (h : Sel st) : Rooted st := by
  obtain ⟨opts, e, z, rest, rfl, -, -, h⟩ := h
  exact (h.rooted.cons e).append _

theorem Sel.dp {st : List Entry} (h : Sel st) : Dp st := by
  refine ⟨h.rooted, ?_, ?_⟩ <;> obtain ⟨opts, e, z, rest, rfl, h1, h2, h3⟩ := h
  · intro x l hx
    cases opts with
    | nil => cases hx; exact nm_html h2 (by decide)
    | cons o opts => cases hx; exact plain_html (h1 _ (by simp))
  · exact (h3.tabled.other h2 (by decide)).plains h1

theorem SelSt.done (h : SelSt q s) : Done s.dom := by
  refine ⟨h.1.tops.wf, .inl ?_⟩
  obtain ⟨opts, e, z, rest, hs, -, -, h3⟩ := h.2.1
  exact h3.has (h.1.tops.sub fun x hx => by rw [hs]; simp [hx])

theorem Sel.push {e : Entry} {st : List Entry} (he : Plain e) (h : Sel st) : Sel (e :: st) := by
  obtain ⟨opts, x, z, rest, rfl, h1, h2, h3⟩ := h
  exact ⟨e :: opts, x, z, rest, rfl, by simpa using ⟨he, h1⟩, h2, h3⟩

theorem Sel.tail {e : Entry} {st : List Entry} (he : Plain e) (h : Sel (e :: st)) : Sel st := by
  obtain ⟨opts, x, z, rest, hs, h1, h2, h3⟩ := h
  cases opts with
  | nil => cases hs; exact absurd he (not_plain h2 (by decide))
  | cons o opts => cases hs; exact ⟨opts, x, z, rest, rfl, fun y hy => h1 y (by simp [hy]), h2, h3⟩

theorem SelSt.pop {e : Entry} {l : List Entry} (h : SelSt q s) (hs : s.stack = e :: l) (he : Plain e) : Sat q (SelSt q) (pop s) := by
  have : Verif.Model.HtmlTree.pop s = .ok { s with stack := l } := by unfold Verif.Model.HtmlTree.pop; rw [hs]
  rw [this]
  exact ⟨CoreOf.sub h.1 (by rw [hs]; exact List.sublist_cons_self _ _), Sel.tail he (hs ▸ h.2.1), h.2.2⟩

theorem SelSt.popIf (h : SelSt q s) {e : Entry} {l : List Entry} (hs : s.stack = e :: l) {k : K} (hk : k ∉ structural) :
    Sat q (SelSt q) (if e.is k then Verif.Model.HtmlTree.pop s else .ok s) :=
  Sat.ite (fun he => h.pop hs (plain_of (is_tag he).1 (is_tag he).2 hk)) fun _ => h

theorem SelSt.insert (h : SelSt q s) {t : Tag} (ht : t.mem structural = false) (attrs : List At) : Sat q (Inv q) (insertHtml s t attrs) := by
  obtain ⟨d, h1, h2, h3, h4⟩ := insertHtml_ok h.1 h.2.1.dp (Ins.plain ht) attrs
  rw [h1]
  exact SelSt.inv ⟨h4, h.2.1.push ⟨rfl, ht⟩, h.2.2⟩

theorem closeSelect_ok (h : SelSt q s) : Sat q (Inv q) (closeSelect s) := by
  obtain ⟨opts, e, z, rest, hs, h1, h2, h3⟩ := h.2.1
  have hp : popUntil (·.is .select) s.stack = rest := by
    rw [hs, pop_pre fun x hx => plain_is (h1 x hx) (by decide), popUntil_hd (nm_is1 h2)]
  obtain ⟨s1, e1, e2, -⟩ := reset_ok h.1 (popUntil_suffix (·.is .select) s.stack).sublist (hp.symm ▸ h3)
  unfold closeSelect
  have e1 : reset (s.popUntil (·.is .select)) = .ok s1 := e1
  rw [e1]
  exact e2.inv

theorem selectStart_ok (hre : Again q re) (h : SelSt q s) {t : Tag} {attrs : List At} {self : Bool} (hf : Fine q (.start t attrs self)) :
    Sat q (Inv q) (selectStart re t attrs self s) := by
  have hr := h.2.1.rooted
  have hnt : t ≠ .k .template := ne_of hf.1 (by decide)
  unfold selectStart
  refine Sat.ite (fun hk => ?_) fun n1 => ?_
  · obtain ⟨d, e1, e2, -⟩ := htmlStart_ok h.1 hr attrs
    rw [e1]
    exact SelSt.inv ⟨e2, h.2⟩
  refine Sat.ite (fun hk => ?_) fun n2 => ?_
  · refine cur_bind hr fun e l hl => Sat.jp (h.popIf hl (by decide)) fun s1 h1 => ?_
    exact h1.insert (is_not hk (by decide)) attrs
  refine Sat.ite (fun hk => ?_) fun n3 => ?_
  · refine cur_bind hr fun e l hl => Sat.jp (h.popIf hl (by decide)) fun s1 h1 => ?_
    refine cur_bind h1.2.1.rooted fun e l hl => Sat.jp (h1.popIf hl (by decide)) fun s2 h2 => ?_
    exact h2.insert (is_not hk (by decide)) attrs
  refine Sat.ite (fun hk => ?_) fun n4 => ?_
  · exact any_bind sc_select hr fun b => Sat.ite (fun _ => closeSelect_ok h) fun _ => h.inv
  refine Sat.ite (fun hk => ?_) fun n5 => ?_
  · exact any_bind sc_select hr fun b => Sat.ite (fun _ => Sat.bind (closeSelect_ok h) fun s1 h1 => (hre _ _ hf h1).to (by simp)) fun _ => h.inv
  refine Sat.ite (fun hk => ?_) fun n6 => h.inv
  refine headStart_ok h.1 h.2.1.dp h.fits ?_ hnt attrs
  cases t with
  | other => cases hk
  | k x =>
    simp only [Tag.mem, List.contains_eq_mem, decide_eq_true_eq, List.mem_cons, List.not_mem_nil, or_false] at hk
    rcases hk with rfl | rfl <;> rfl

theorem selectEnd_ok (h : SelSt q s) (t : Tag) : Sat q (Inv q) (selectEnd t s) := by
  have hr := h.2.1.rooted
  unfold selectEnd
  refine Sat.ite (fun hk => ?_) fun n1 => ?_
  · have jp : ∀ s1, SelSt q s1 → Sat q (Inv q) (do
        let e ← cur s1
        if e.is .optgroup then pop s1 else .ok s1) := fun s1 h1 =>
      cur_bind h1.2.1.rooted fun e l hl => (h1.popIf hl (by decide)).mono fun _ h => h.inv
    refine cur_bind hr fun e l hl => Sat.ite (fun he => ?_) fun _ => jp s h
    have hpl := plain_of (is_tag he).1 (is_tag he).2 (by decide)
    have ht : Sel l := Sel.tail hpl (hl ▸ h.2.1)
    rw [hl]
    cases l with
    | nil => exact absurd rfl ht.rooted.ne
    | cons e2 l => exact Sat.ite (fun _ => Sat.bind (h.pop hl hpl) jp) fun _ => jp s h
  refine Sat.ite (fun hk => ?_) fun n2 => ?_
  · exact cur_bind hr fun e l hl => (h.popIf hl (by decide)).mono fun _ h => h.inv
  refine Sat.ite (fun hk => ?_) fun n3 => ?_
  · exact any_bind sc_select hr fun b => Sat.ite (fun _ => closeSelect_ok h) fun _ => h.inv
  refine Sat.ite (fun hk => ?_) fun n4 => h.inv
  rw [templateEnd_eq h.1]
  exact h.inv

theorem onInSelect_ok (hre : Again q re) (h : SelSt q s) {tok : Tok} (hf : Fine q tok) : Good q tok (onInSelect re tok s) := by
  have hr := h.2.1.rooted
  unfold onInSelect
  cases tok with
  | char c =>
    refine Sat.ite (fun _ => h.inv) fun _ => ?_
    obtain ⟨d, e1, e2, -⟩ := insertChar_ok h.1 hr c
    rw [e1]
    exact SelSt.inv ⟨e2, h.2⟩
  | comment t =>
    obtain ⟨d, e1, e2, -⟩ := insertComment_ok h.1 hr t
    dsimp only
    rw [e1]
    exact SelSt.inv ⟨e2, h.2⟩
  | doctype d => exact h.inv
  | start t a f => exact Good.of (selectStart_ok hre h hf)
  | fin t => exact Good.of (selectEnd_ok h t)
  | eof =>
    dsimp only
    rw [body_eof h.1]
    exact h.done

theorem onInSelectInTable_ok (hre : Again q re) (h : SelSt q s) {tok : Tok} (hf : Fine q tok) : Good q tok (onInSelectInTable re tok s) := by
  have hs := onInSelect_ok hre h hf
  unfold onInSelectInTable
  cases tok with
  | start t a f => exact Sat.ite (fun _ => Sat.bind (closeSelect_ok h) fun s1 h1 => hre _ _ hf h1) fun _ => hs
  | fin t =>
    refine Sat.ite (fun _ => ?_) fun _ => hs
    exact any_bind sc_select h.2.1.rooted fun b => Sat.ite (fun _ => Sat.bind (closeSelect_ok h) fun s1 h1 => hre _ _ hf h1) fun _ => h.inv
  | _ => exact hs

/-! Steps that change the tree alone. -/

theorem Inv.dom (h : Inv q s) {d : Dom} (hc : CoreOf q d s.stack s.fmt s.form s.head s.tmpl ∧ Kept s.dom d) : Inv q { s with dom := d } :=
  ⟨hc.1, h.2.kept h.1.tops.wf hc.2⟩

theorem Inv.char (h : Inv q s) (hr : Rooted s.stack) (c : Nat) : Sat q (Inv q) (insertChar s c) := by
  obtain ⟨d, e1, e2⟩ := insertChar_ok h.1 hr c
  rw [e1]
  exact h.dom e2

theorem Inv.comment (h : Inv q s) (hr : Rooted s.stack) (t : List Nat) : Sat q (Inv q) (insertComment s t) := by
  obtain ⟨d, e1, e2⟩ := insertComment_ok h.1 hr t
  rw [e1]
  exact h.dom e2

theorem Inv.commentAt (h : Inv q s) {p : Nat} (hp : p = 0 ∨ Elem s.dom p) (t : List Nat) : Sat q (Inv q) (commentAt s (.last p) t) := by
  obtain ⟨d, e1, e2⟩ := commentAt_ok (pl := .last p) h.1 rfl hp t
  rw [e1]
  exact h.dom e2

theorem Inv.htmlStart (h : Inv q s) (hr : Rooted s.stack) (a : List At) : Sat q (Inv q) (htmlStart s a) := by
  obtain ⟨d, e1, e2⟩ := htmlStart_ok h.1 hr a
  rw [e1]
  exact h.dom e2

theorem Inv.insertPop (h : Inv q s) (hr : Dp s.stack) {t : Tag} (ht : Ins s.dom t) (a : List At) : Sat q (Inv q) (insertPop s t a) := by
  obtain ⟨d, e1, e2⟩ := insertPop_ok h.1 hr ht a
  rw [e1]
  exact h.dom e2

theorem front_bind {α : Type} {P : α → Prop} {f : Entry → R α} (hr : Rooted s.stack) (hf : ∀ e ∈ s.stack, Sat q P (f e)) : Sat q P (front s >>= f) := by
  obtain ⟨l, e, hs, -⟩ := hr
  have : front s = .ok e := by unfold front; rw [hs]; simp
  rw [this]
  exact hf e (by rw [hs]; simp)

theorem assert_ok {k : K} {e : Entry} {l : List Entry} (hs : s.stack = e :: l) (he : e.is k = true) : assertCur s k = .ok () := by
  unfold assertCur cur
  rw [hs]
  show (if e.is k then _ else _) = _
  rw [he]
  rfl

theorem pop_eq {e : Entry} {l : List Entry} (hs : s.stack = e :: l) : pop s = .ok { s with stack := l } := by unfold pop; rw [hs]

/-! "Initial", "before html", "before head". -/

theorem onInitial_ok {tbl : List Nat → Bool} (hre : Again q re) (hc : Core q s) (hs : s.stack = []) (hfm : s.fmt = []) (h0 : els s.dom 0 = [])
    (hm : s.mode = .initial) {tok : Tok} (hf : Fine q tok) : Good q tok (onInitial tbl re tok s) := by
  have hi : Inv q s := ⟨hc, by rw [hm]; exact ⟨hs, hfm, h0⟩⟩
  have els : Good q tok (initialElse re tok s) := hre _ _ hf ⟨hc, hs, hfm, h0⟩
  unfold onInitial
  cases tok with
  | char c => exact Sat.ite (fun _ => hi) fun _ => els
  | comment t => exact Good.of (hi.commentAt (.inl rfl) t)
  | doctype d =>
    obtain ⟨d', e1, e2, e3, e4⟩ := link_new (d := s.dom) (pl := .last 0) (p := 0) (k := .doctype d.name d.pub d.sys) hc.tops.wf rfl (.inl rfl) (by simp) (by simp)
      (.inl (by simp))
    dsimp only
    rw [e1]
    exact ⟨CoreOf.up hc e3, hs, hfm, (e3.2.2.root hc.tops.wf).trans h0⟩
  | _ => exact els

theorem insertRoot_ok (hc : Core q s) (hs : s.stack = []) (hfm : s.fmt = []) (h0 : els s.dom 0 = []) (attrs : List At) :
    Sat q (Inv q) (insertRoot s attrs) := by
  obtain ⟨d', e1, e2, e3, e4⟩ := link_new' (d := s.dom) (pl := .last 0) (p := 0) (k := .elem .html (.k .html) attrs) rfl
  obtain ⟨g0, g1, g2, g3, g4⟩ := Forest.els_last hc.tops.wf (.inl rfl) e1
  rw [h0] at g3
  have hn : els d' s.dom.length = [] := by
    rw [g4 _ (Nat.ne_of_gt hc.tops.wf.pos), Forest.els_none (Nat.le_refl _)]
  have hh : Has d' [] := ⟨s.dom.length, g3, g2, by rw [hn]; rfl⟩
  unfold insertRoot create
  dsimp only
  rw [e1]
  have hl : s.dom.length < d'.length := by omega
  have htop : Tops d' (⟨s.dom.length, .html, .k .html, attrs⟩ :: s.stack) s.head := by
    rw [hs]
    refine ⟨g0, ?_, ?_, ?_, fun n hn => g1 _ _ (hc.tops.hdt n hn), ?_, ?_⟩
    · intro x hx; cases List.mem_singleton.mp hx; exact g2
    · intro x hx _; cases List.mem_singleton.mp hx; rw [g3]; simp
    · intro r hr; rw [g3] at hr; cases List.mem_singleton.mp hr; exact g2
    · intro x hx l hl; cases List.mem_singleton.mp hx; cases hl
    · intro x hx ht; cases List.mem_singleton.mp hx; cases ht
  refine ⟨CoreOf.push' hc e3 rfl hl rfl (by simp) (by simp) htop, ⟨⟨s.dom.length, .html, .k .html, attrs⟩, ?_, rfl, .html, by simp, rfl⟩, hfm, hh⟩
  show _ :: s.stack = _
  rw [hs]

theorem onBeforeHtml_ok (hre : Again q re) (hc : Core q s) (hs : s.stack = []) (hfm : s.fmt = []) (h0 : els s.dom 0 = []) (hm : s.mode = .beforeHtml)
    {tok : Tok} (hf : Fine q tok) : Good q tok (onBeforeHtml re tok s) := by
  have hi : Inv q s := ⟨hc, by rw [hm]; exact ⟨hs, hfm, h0⟩⟩
  have els : Good q tok (beforeHtmlElse re tok s) := Sat.bind (insertRoot_ok hc hs hfm h0 []) fun s1 h1 => hre _ _ hf h1
  unfold onBeforeHtml
  cases tok with
  | char c => exact Sat.ite (fun _ => hi) fun _ => els
  | comment t => exact Good.of (hi.commentAt (.inl rfl) t)
  | doctype d => exact hi
  | start t a f => exact Sat.ite (fun _ => Good.of (insertRoot_ok hc hs hfm h0 a)) fun _ => els
  | fin t => exact Sat.ite (fun _ => els) fun _ => hi
  | eof => exact els

theorem OnlyHtml.rooted {st : List Entry} (h : OnlyHtml st) : Rooted st := by
  obtain ⟨e, rfl, he⟩ := h
  exact ⟨[], e, rfl, he⟩

/-- A new element in the root. -/
theorem topInsert_ok (hc : Core q s) (ho : OnlyHtml s.stack) {l : List K} (hl : Has s.dom l) {k : K} (hk : k ∉ [K.template, .html, .table])
    (hst : ∀ l', stageOf (.k k) = some l' → l' = l ++ [k]) (attrs : List At) :
    ∃ d, insertHtml s (.k k) attrs = .ok { s with dom := d, stack := ⟨s.dom.length, .html, .k k, attrs⟩ :: s.stack } ∧ s.dom.length < d.length ∧
      CoreOf q d (⟨s.dom.length, .html, .k k, attrs⟩ :: s.stack) s.fmt s.form s.head s.tmpl ∧ Has d (l ++ [k]) ∧
      tagAt d s.dom.length = some (.html, .k k) := by
  obtain ⟨e, hs, he⟩ := ho
  have hm : e ∈ s.stack := by rw [hs]; simp
  have het : e.tag = .k .html := by
    obtain ⟨-, x, hx, h⟩ := he
    cases List.mem_singleton.mp hx
    exact h
  have hroot := hc.tops.bots e hm het
  have hel : Elem s.dom e.node := Forest.tag_elem (hc.tops.tags e hm)
  have hne : (0 : Nat) ≠ e.node := by
    intro h0
    have := hc.tops.tags e hm
    unfold tagAt at this
    rw [← h0, hc.tops.wf.doc] at this
    cases this
  have h1 : cur s = .ok e := by unfold cur; rw [hs]
  have h2 : place s e = .ok (.last e.node) := by
    unfold place
    rw [if_neg]
    intro hcn
    rw [Bool.and_eq_true, isIn_k he.1 het] at hcn
    exact absurd hcn.2 (by decide)
  obtain ⟨d, e1, e2, e3, e4⟩ := link_new' (d := s.dom) (pl := .last e.node) (p := e.node) (k := .elem .html (.k k) attrs) rfl
  obtain ⟨g0, g1, g2, g3, g4⟩ := Forest.els_last hc.tops.wf (.inr hel) e1
  have hh := Forest.Has.last hc.tops.wf hl hroot e1
  simp only [List.mem_cons, List.not_mem_nil, or_false, not_or] at hk
  refine ⟨d, ?_, by omega, CoreOf.push' hc e3 rfl (by omega) rfl (by simpa using hk.1) (by simpa using fun h => absurd h hk.2.2) ?_, hh, g2⟩
  · unfold insertHtml insertForeign create
    rw [h1, bind_ok, h2, bind_ok]
    dsimp only
    rw [e1]
    rfl
  · have h0 : els d 0 = els s.dom 0 := g4 0 hne
    refine ⟨g0, ?_, ?_, fun r hr => ?_, fun n hn => g1 _ _ (hc.tops.hdt n hn), ?_, ?_⟩
    · intro x hx
      rcases List.mem_cons.mp hx with rfl | hx
      · exact g2
      · exact g1 _ _ (hc.tops.tags x hx)
    · intro x hx hxt
      rcases List.mem_cons.mp hx with rfl | hx
      · exact absurd (by simpa using hxt) hk.2.1
      · rw [h0]; exact hc.tops.bots x hx hxt
    · rw [h0] at hr
      exact g1 _ _ (hc.tops.root r hr)
    · intro x hx l' hl'
      rcases List.mem_cons.mp hx with rfl | hx
      · rw [hst l' hl']; exact hh
      · rw [hs] at hx
        cases List.mem_singleton.mp hx
        rw [het] at hl'
        cases hl'
    · intro x hx hxt
      rcases List.mem_cons.mp hx with rfl | hx
      · exact absurd (by simpa using hxt) hk.2.2
      · rw [hs] at hx
        cases List.mem_singleton.mp hx
        rw [het] at hxt
        cases hxt

theorem insertHead_ok (hc : Core q s) (ho : OnlyHtml s.stack) (hfm : s.fmt = []) (hl : Has s.dom []) (attrs : List At) : Sat q (Inv q) (insertHead s attrs) := by
  obtain ⟨d, e1, e3, e4, e5, e6⟩ := topInsert_ok (k := .head) hc ho hl (by decide) (fun l' h => by cases h; rfl) attrs
  unfold insertHead
  rw [e1]
  obtain ⟨e, hs, he⟩ := ho
  refine ⟨CoreOf.head' (n := some s.dom.length) e4 ?_ ?_ ?_, ⟨⟨s.dom.length, .html, .k .head, attrs⟩, e, ?_, ⟨rfl, .head, by simp, rfl⟩, he⟩, hfm, by simp⟩
  · intro x hx
    cases hx
    refine ⟨e3, fun y hy hye => ?_⟩
    rcases List.mem_cons.mp hy with rfl | hy
    · rfl
    · have := hc.small y hy
      omega
  · intro x hx hh
    cases hh
    exact absurd (hc.forms _ hx).1 (Nat.lt_irrefl _)
  · intro x hx
    cases hx
    exact e6
  · show _ :: s.stack = _
    rw [hs]

theorem onBeforeHead_ok (hre : Again q re) (hc : Core q s) (ho : OnlyHtml s.stack) (hfm : s.fmt = []) (hl : Has s.dom []) (hm : s.mode = .beforeHead)
    {tok : Tok} (hf : Fine q tok) : Good q tok (onBeforeHead re tok s) := by
  have hi : Inv q s := ⟨hc, by rw [hm]; exact ⟨ho, hfm, hl⟩⟩
  have els : Good q tok (beforeHeadElse re tok s) := Sat.bind (insertHead_ok hc ho hfm hl []) fun s1 h1 => hre _ _ hf h1
  unfold onBeforeHead
  cases tok with
  | char c => exact Sat.ite (fun _ => hi) fun _ => els
  | comment t => exact Good.of (hi.comment ho.rooted t)
  | doctype d => exact hi
  | start t a f => exact Sat.ite (fun _ => Good.of (hi.htmlStart ho.rooted a)) fun _ => Sat.ite (fun _ => Good.of (insertHead_ok hc ho hfm hl a)) fun _ => els
  | fin t => exact Sat.ite (fun _ => els) fun _ => hi
  | eof => exact els

/-! "In head", "in head noscript", "after head". -/

/-- Only `head` and `html` are open. -/
def TwoOpen (st : List Entry) : Prop := ∃ a b, st = [a, b] ∧ Nm a [.head] ∧ Nm b [.html]

theorem TwoOpen.rooted {st : List Entry} (h : TwoOpen st) : Rooted st := by
  obtain ⟨a, b, rfl, -, hb⟩ := h
  exact ⟨[a], b, rfl, hb⟩

theorem TwoOpen.dp {st : List Entry} (h : TwoOpen st) : Dp st := by
  refine ⟨h.rooted, ?_, ?_⟩ <;> obtain ⟨a, b, rfl, ha, hb⟩ := h
  · intro x l hx; cases hx; exact nm_html ha (by decide)
  · exact (Tabled.html hb).other ha (by decide)

/-- Only `noscript`, `head` and `html` are open. -/
def ThreeOpen (st : List Entry) : Prop := ∃ n a b, st = [n, a, b] ∧ Nm n [.noscript] ∧ Nm a [.head] ∧ Nm b [.html]

theorem ThreeOpen.rooted {st : List Entry} (h : ThreeOpen st) : Rooted st := by
  obtain ⟨n, a, b, rfl, -, -, hb⟩ := h
  exact ⟨[n, a], b, rfl, hb⟩

theorem ThreeOpen.dp {st : List Entry} (h : ThreeOpen st) : Dp st := by
  refine ⟨h.rooted, ?_, ?_⟩ <;> obtain ⟨n, a, b, rfl, hn, ha, hb⟩ := h
  · intro x l hx; cases hx; exact nm_html hn (by decide)
  · exact ((Tabled.html hb).other ha (by decide)).other hn (by decide)

theorem nm_tag {e : Entry} {k : K} (h : Nm e [k]) : e.tag = .k k := by
  obtain ⟨-, x, hx, h⟩ := h
  cases List.mem_singleton.mp hx
  exact h

theorem popHead_ok (hc : Core q s) (ho : TwoOpen s.stack) (hfm : s.fmt = []) (hh : s.head ≠ none) :
    ∃ s', (assertCur s .head >>= fun _ => pop s) = .ok s' ∧ Inv q (s'.to .afterHead) := by
  obtain ⟨a, b, hs, ha, hb⟩ := ho
  refine ⟨{ s with stack := [b] }, ?_, CoreOf.sub hc (by rw [hs]; exact List.sublist_cons_self _ _), ⟨b, rfl, hb⟩, hfm, hh,
    hc.tops.stage a (by rw [hs]; simp) _ (by rw [nm_tag ha]; rfl)⟩
  rw [assert_ok hs (nm_is1 ha), pop_eq hs]
  rfl

theorem inHeadElse_ok (hre : Again q re) (hc : Core q s) (ho : TwoOpen s.stack) (hfm : s.fmt = []) (hh : s.head ≠ none) {tok : Tok} (hf : Fine q tok) :
    Good q tok (inHeadElse re tok s) := by
  obtain ⟨s', h1, h2⟩ := popHead_ok hc ho hfm hh
  unfold inHeadElse
  rw [← bind_assoc, h1]
  exact hre _ _ hf h2

theorem onInHead_ok (hre : Again q re) (hc : Core q s) (ho : TwoOpen s.stack) (hfm : s.fmt = []) (hh : s.head ≠ none) (hm : s.mode = .inHead) {tok : Tok} (hf : Fine q tok) :
    Good q tok (onInHead re tok s) := by
  have hfit : Fits s.dom s.mode s.stack s.fmt s.head := by rw [hm]; exact ⟨ho, hfm, hh⟩
  have hi : Inv q s := ⟨hc, hfit.mfit⟩
  have els : Good q tok (inHeadElse re tok s) := inHeadElse_ok hre hc ho hfm hh hf
  unfold onInHead
  cases tok with
  | char c => exact Sat.ite (fun _ => Good.of (hi.char ho.rooted c)) fun _ => els
  | comment t => exact Good.of (hi.comment ho.rooted t)
  | doctype d => exact hi
  | start t a f =>
    have hnt : t ≠ .k .template := ne_of hf.1 (by decide)
    refine Sat.ite (fun _ => Good.of (hi.htmlStart ho.rooted a)) fun _ => Sat.ite (fun hk => Good.of (headStart_ok hc ho.dp hfit hk hnt a)) fun _ =>
      Sat.ite (fun hk => ?_) fun _ => Sat.ite (fun _ => hi) fun _ => els
    obtain ⟨d, e1, e2, e3, e4⟩ := insertHtml_ok hc ho.dp (Ins.of (is_not hk (by decide))) a
    rw [e1]
    obtain ⟨x, y, hs, hx, hy⟩ := ho
    refine ⟨e4, ⟨⟨s.dom.length, .html, t, a⟩, x, y, ?_, ⟨rfl, .noscript, by simp, is_iff.mp hk⟩, hx, hy⟩, hfm, hh⟩
    show _ :: s.stack = _
    rw [hs]
  | fin t =>
    refine Sat.ite (fun _ => ?_) fun _ => Sat.ite (fun _ => els) fun _ => Sat.ite (fun _ => ?_) fun _ => hi
    · obtain ⟨s', h1, h2⟩ := popHead_ok hc ho hfm hh
      rw [← bind_assoc, h1]
      exact h2
    · rw [templateEnd_eq hc]
      exact hi
  | eof => exact els

theorem popNoscript_ok (hc : Core q s) (ho : ThreeOpen s.stack) (hfm : s.fmt = []) (hh : s.head ≠ none) : Sat q (Inv q) (popNoscript s) := by
  obtain ⟨n, a, b, hs, hn, ha, hb⟩ := ho
  unfold popNoscript
  rw [assert_ok hs (nm_is1 hn), bind_ok, pop_eq hs, bind_ok, assert_ok (s := { s with stack := [a, b] }) rfl (nm_is1 ha), bind_ok]
  exact ⟨CoreOf.sub hc (by rw [hs]; exact List.sublist_cons_self _ _), ⟨a, b, rfl, ha, hb⟩, hfm, hh⟩

theorem onInHeadNoscript_ok (hre : Again q re) (hc : Core q s) (ho : ThreeOpen s.stack) (hfm : s.fmt = []) (hh : s.head ≠ none) (hm : s.mode = .inHeadNoscript)
    {tok : Tok} (hf : Fine q tok) : Good q tok (onInHeadNoscript re tok s) := by
  have hfit : Fits s.dom s.mode s.stack s.fmt s.head := by rw [hm]; exact ⟨ho, hfm, hh⟩
  have hi : Inv q s := ⟨hc, hfit.mfit⟩
  have els : Good q tok (noscriptElse re tok s) := Sat.bind (popNoscript_ok hc ho hfm hh) fun s1 h1 => hre _ _ hf h1
  unfold onInHeadNoscript
  cases tok with
  | char c =>
    refine Sat.ite (fun hw => ?_) fun _ => els
    unfold onInHead
    dsimp only
    rw [if_pos hw]
    exact Good.of (hi.char ho.rooted c)
  | comment t => exact Good.of (hi.comment ho.rooted t)
  | doctype d => exact hi
  | start t a f =>
    have hnt : t ≠ .k .template := ne_of hf.1 (by decide)
    refine Sat.ite (fun _ => Good.of (hi.htmlStart ho.rooted a)) fun n1 => Sat.ite (fun hk => ?_) fun _ => Sat.ite (fun _ => hi) fun _ => els
    unfold onInHead
    dsimp only
    have hk' : t.mem headTags = true := by
      cases t with
      | other => cases hk
      | k x =>
        simp only [Tag.mem, List.contains_eq_mem, decide_eq_true_eq] at hk ⊢
        have : ∀ x ∈ [K.basefont, .bgsound, .link, .metaEl, .noframes, .style], x ∈ headTags := by decide
        exact this x hk
    rw [if_neg n1, if_pos hk']
    exact Good.of (headStart_ok hc ho.dp hfit hk' hnt a)
  | fin t => exact Sat.ite (fun _ => Good.of (popNoscript_ok hc ho hfm hh)) fun _ => Sat.ite (fun _ => els) fun _ => hi
  | eof => exact els

theorem afterHeadElse_ok (hre : Again q re) (hc : Core q s) (ho : OnlyHtml s.stack) (hl : Has s.dom [.head]) {tok : Tok} (hf : Fine q tok) : Good q tok (afterHeadElse re tok s) := by
  obtain ⟨d, e1, e3, e4, -⟩ := topInsert_ok (k := .body) hc ho hl (by decide) (fun l' h => by cases h; rfl) []
  unfold afterHeadElse
  rw [e1]
  obtain ⟨e, hs, he⟩ := ho
  refine hre tok { s with dom := d, stack := _, mode := .inBody } hf ⟨e4, ?_⟩
  show Sh .body (_ :: s.stack)
  rw [hs]
  exact (Base.body ⟨rfl, .body, by simp, rfl⟩ he).sh

theorem headTag_ok (hc : Core q s) (ho : OnlyHtml s.stack) (hfm : s.fmt = []) (hl : Has s.dom [.head]) (hm : s.mode = .afterHead) {h : Nat} (hh : s.head = some h) {t : Tag}
    (ht : t.mem headTags = true) (hnt : t ≠ .k .template) (attrs : List At) : Sat q (Inv q) (do
      let s ← inHeadStart t attrs { s with stack := ⟨h, .html, .k .head, []⟩ :: s.stack }
      .ok { s with stack := s.stack.filter fun e => e.node != h }) := by
  obtain ⟨hlt, hhd⟩ := hc.heads h hh
  have ho' := ho
  obtain ⟨e, hs, he⟩ := ho
  have hne : e.node ≠ h := by
    intro hc'
    have := hhd e (by rw [hs]; simp) hc'
    obtain ⟨h1, k, hk, h2⟩ := he
    simp only [List.mem_singleton] at hk
    subst hk
    rw [h2] at this
    cases this
  have hfil : s.stack.filter (fun e => e.node != h) = s.stack := by rw [hs]; simp [hne]
  let s0 : S := { s with stack := ⟨h, .html, .k .head, []⟩ :: s.stack }
  have h0 : Core q s0 := by
    refine ⟨?_, ?_, ?_, ?_, ?_, ?_, ?_, hc.tmpls, hc.apart, hc.quiet,
      hc.tops.cons (hc.tops.hdt h hh) (by simp) (fun l' h => by cases h; exact hl) (by simp)⟩
    · intro x hx
      rcases List.mem_cons.mp hx with rfl | hx
      · exact ⟨rfl, by simp⟩
      · exact hc.names x hx
    · intro x hx hxt
      rcases List.mem_cons.mp hx with rfl | hx
      · cases hxt
      · exact hc.tables x hx hxt
    · show (h :: s.stack.map Entry.node).Nodup
      rw [hs]
      simpa using fun hc => hne hc.symm
    · intro x hx
      rcases List.mem_cons.mp hx with rfl | hx
      · exact hlt
      · exact hc.small x hx
    · intro x hx
      rw [show s0.fmt = [] from hfm] at hx
      cases hx
    · intro n hn
      refine ⟨(hc.forms n hn).1, fun x hx hxn => ?_⟩
      rcases List.mem_cons.mp hx with rfl | hx
      · exact absurd (hh.trans (congrArg some hxn)) (hc.apart n hn)
      · exact (hc.forms n hn).2 x hx hxn
    · intro n hn
      refine ⟨(hc.heads n hn).1, fun x hx hxn => ?_⟩
      rcases List.mem_cons.mp hx with rfl | hx
      · rfl
      · exact (hc.heads n hn).2 x hx hxn
  have hr0 : Dp s0.stack := by
    refine ⟨ho'.rooted.cons _, fun x l hx => by cases hx; simp, ?_⟩
    show Tabled (_ :: s.stack)
    rw [hs]
    exact (Tabled.html he).other (l := [.head]) ⟨rfl, .head, by simp, rfl⟩ (by decide)
  obtain ⟨d, hu, h1 | ⟨sw, h1, h2, h4, h3⟩⟩ := headStart_eq h0 hr0 ht hnt attrs
  · rw [h1, bind_ok]
    have hst : List.filter (fun e => e.node != h) s0.stack = s.stack := by
      show List.filter _ (⟨h, .html, .k .head, []⟩ :: s.stack) = _
      rw [List.filter_cons_of_neg (by simp), hfil]
    refine ⟨?_, ?_⟩
    · show CoreOf q d (List.filter (fun e => e.node != h) s0.stack) s.fmt s.form s.head s.tmpl
      rw [hst]
      exact CoreOf.up hc hu
    · show Mfit d s.mode s.orig (List.filter (fun e => e.node != h) s0.stack) s.fmt s.head
      rw [hst, hm]
      exact ⟨ho', hfm, by rw [hh]; simp, hl.kept hc.tops.wf hu.2.2⟩
  · rw [h3, bind_ok]
    have hst : List.filter (fun e => e.node != h) (⟨s0.dom.length, .html, t, attrs⟩ :: s0.stack) = ⟨s.dom.length, .html, t, attrs⟩ :: s.stack := by
      rw [List.filter_cons_of_pos (by show (s.dom.length != h) = true; simp; omega)]
      show _ :: List.filter _ (⟨h, .html, .k .head, []⟩ :: s.stack) = _
      rw [List.filter_cons_of_neg (by simp), hfil]
    refine ⟨?_, ?_⟩
    · show CoreOf q d (List.filter (fun e => e.node != h) (⟨s0.dom.length, .html, t, attrs⟩ :: s0.stack)) s.fmt s.form s.head s.tmpl
      rw [hst]
      exact CoreOf.push hc hu rfl h1 rfl (Ins.plain h2) (fun hc => absurd hc (plain_tag (e := ⟨0, .html, t, []⟩) ⟨rfl, h2⟩).2.1) h4
    · refine ⟨_, _, hst, ⟨rfl, h2⟩, ho'.rooted, ?_⟩
      show Fits d s.mode s.stack s.fmt s.head
      rw [hm]
      exact ⟨ho', hfm, by rw [hh]; simp, hl.kept hc.tops.wf hu.2.2⟩

theorem onAfterHead_ok (hre : Again q re) (hc : Core q s) (ho : OnlyHtml s.stack) (hfm : s.fmt = []) (hh : s.head ≠ none) (hl : Has s.dom [.head]) (hm : s.mode = .afterHead)
    {tok : Tok} (hf : Fine q tok) : Good q tok (onAfterHead re tok s) := by
  have hi : Inv q s := ⟨hc, by rw [hm]; exact ⟨ho, hfm, hh, hl⟩⟩
  have els : Good q tok (afterHeadElse re tok s) := afterHeadElse_ok hre hc ho hl hf
  unfold onAfterHead
  cases tok with
  | char c => exact Sat.ite (fun _ => Good.of (hi.char ho.rooted c)) fun _ => els
  | comment t => exact Good.of (hi.comment ho.rooted t)
  | doctype d => exact hi
  | start t a f =>
    have hnt : t ≠ .k .template := ne_of hf.1 (by decide)
    refine Sat.ite (fun _ => Good.of (hi.htmlStart ho.rooted a)) fun _ => Sat.ite (fun hk => ?_) fun _ => Sat.ite (fun hk => ?_) fun _ =>
      Sat.ite (fun hk => ?_) fun _ => Sat.ite (fun _ => hi) fun _ => els
    · have htt := is_iff.mp hk
      subst htt
      obtain ⟨d, e1, e3, e4, -⟩ := topInsert_ok (k := .body) hc ho hl (by decide) (fun l' h => by cases h; rfl) a
      rw [e1]
      obtain ⟨e, hs, he⟩ := ho
      refine ⟨e4, ?_⟩
      show Sh .body (_ :: s.stack)
      rw [hs]
      exact (Base.body ⟨rfl, .body, by simp, is_iff.mp hk⟩ he).sh
    · have htt := is_iff.mp hk
      subst htt
      obtain ⟨d, e1, e3, e4, -⟩ := topInsert_ok (k := .frameset) hc ho hl (by decide) (fun l' h => by cases h; rfl) a
      rw [e1]
      obtain ⟨e, hs, he⟩ := ho
      refine ⟨e4, ⟨[⟨s.dom.length, .html, .k .frameset, a⟩], e, ?_, by simp, ?_, he⟩, hfm⟩
      · show _ :: s.stack = _
        rw [hs]
        rfl
      · intro x hx
        simp only [List.mem_singleton] at hx
        subst hx
        exact ⟨rfl, .frameset, by simp, is_iff.mp hk⟩
    · cases hh' : s.head with
      | none => exact absurd hh' hh
      | some h =>
        have := headTag_ok hc ho hfm hl hm hh' hk hnt a
        rw [hh'] at this
        exact Good.of this
  | fin t =>
    refine Sat.ite (fun _ => ?_) fun _ => Sat.ite (fun _ => els) fun _ => hi
    rw [templateEnd_eq hc]
    exact hi
  | eof => exact els

/-! "Text". -/

theorem onText_ok (hre : Again q re) (h : Inv q s) (hm : s.mode = .text) {tok : Tok} (hf : Fine q tok) : Good q tok (onText re tok s) := by
  have h2 := h.2
  rw [hm] at h2
  obtain ⟨e, l, hs, he, hr, hfit⟩ := h2
  have hroot : Rooted s.stack := by rw [hs]; exact hr.cons e
  have hi : Inv q (S.to { s with stack := l } s.orig) := ⟨CoreOf.sub h.1 (by rw [hs]; exact List.sublist_cons_self _ _), hfit.mfit⟩
  unfold onText
  cases tok with
  | char c => exact Good.of (h.char hroot c)
  | eof =>
    refine cur_bind hroot fun _ _ _ => ?_
    rw [pop_eq hs, bind_ok]
    exact hre _ _ hf hi
  | fin t =>
    dsimp only
    rw [pop_eq hs, bind_ok]
    exact hi
  | _ => exact h

/-! After the body, framesets. -/

theorem onAfterBody_ok (hre : Again q re) (hc : Core q s) (hs : Sh .body s.stack) (hm : s.mode = .afterBody) {tok : Tok} (hf : Fine q tok) :
    Good q tok (onAfterBody re tok s) := by
  have hb : Body q .body s := ⟨hc, hs, .inr ⟨rfl, .inl hm⟩⟩
  have els : Good q tok (re tok (s.to .inBody)) := hre _ _ hf ⟨hc, hs⟩
  unfold onAfterBody
  cases tok with
  | char c => exact Sat.ite (fun _ => onInBody_ok hre hb hf (fun _ _ _ _ _ => by decide) fun _ _ h => absurd rfl h) fun _ => els
  | comment t => exact Good.of (front_bind hs.rooted fun e he => hb.inv.commentAt (.inr (Forest.tag_elem (hc.tops.tags e he))) t)
  | doctype d => exact hb.inv
  | start t a f => exact Sat.ite (fun _ => Good.of (hb.inv.htmlStart hs.rooted a)) fun _ => els
  | fin t => exact Sat.ite (fun _ => ⟨hc, hs⟩) fun _ => els
  | eof => exact hb.done

theorem onAfterAfterBody_ok (hre : Again q re) (hc : Core q s) (hs : Sh .body s.stack) (hm : s.mode = .afterAfterBody) {tok : Tok} (hf : Fine q tok) :
    Good q tok (onAfterAfterBody re tok s) := by
  have hb : Body q .body s := ⟨hc, hs, .inr ⟨rfl, .inr hm⟩⟩
  have els : Good q tok (re tok (s.to .inBody)) := hre _ _ hf ⟨hc, hs⟩
  have body : Good q tok (onInBody re tok s) := onInBody_ok hre hb hf (fun _ _ _ _ _ => by decide) fun _ _ h => absurd rfl h
  unfold onAfterAfterBody
  cases tok with
  | char c => exact Sat.ite (fun _ => body) fun _ => els
  | comment t => exact Good.of (hb.inv.commentAt (.inl rfl) t)
  | doctype d => exact body
  | start t a f => exact Sat.ite (fun _ => body) fun _ => els
  | fin t => exact els
  | eof => exact hb.done

theorem noframes_head {t : Tag} (h : t.is .noframes = true) : t.mem headTags = true := by rw [is_iff.mp h]; rfl

/-- A `noframes` element in the root. -/
theorem noframes_ok (hc : Core q s) (ho : OnlyHtml s.stack) (hfm : s.fmt = []) (hl : HasF s.dom) (hm : s.mode = .afterFrameset ∨ s.mode = .afterAfterFrameset)
    {t : Tag} (ht : t.is .noframes = true) (attrs : List At) : Sat q (Inv q) (inHeadStart t attrs s) := by
  have htt := is_iff.mp ht
  subst htt
  obtain ⟨n, hl⟩ := hl
  obtain ⟨d, e1, e3, e4, e5, -⟩ := topInsert_ok (k := .noframes) hc ho hl (by decide) (fun l' h => by cases h) attrs
  have e : inHeadStart (.k .noframes) attrs s = rawText s .rawtext (.k .noframes) attrs := rfl
  have hF : HasF d := ⟨n + 1, by
    rw [List.replicate_succ']
    exact e5⟩
  rw [e]
  unfold rawText
  rw [e1]
  refine ⟨e4, _, _, rfl, ⟨rfl, rfl⟩, ho.rooted, ?_⟩
  show Fits d s.mode s.stack s.fmt s.head
  rcases hm with hm | hm <;> rw [hm] <;> exact ⟨ho, hfm, hF⟩

theorem onInFrameset_ok (hc : Core q s) (ho : ∃ l e, s.stack = l ++ [e] ∧ l ≠ [] ∧ (∀ x ∈ l, Nm x [.frameset]) ∧ Nm e [.html]) (hfm : s.fmt = []) (hm : s.mode = .inFrameset)
    {tok : Tok} (hf : Fine q tok) : Good q tok (onInFrameset tok s) := by
  have hfit : Fits s.dom s.mode s.stack s.fmt s.head := by rw [hm]; exact ⟨ho, hfm⟩
  have hi : Inv q s := ⟨hc, hfit.mfit⟩
  obtain ⟨l, e, hs, hne, hl, he⟩ := ho
  have hr : Rooted s.stack := ⟨l, e, hs, he⟩
  have hh : Has s.dom [.head, .frameset] := by
    cases l with
    | nil => exact absurd rfl hne
    | cons y l => exact hc.tops.stage y (by rw [hs]; simp) _ (by rw [nm_tag (hl y (by simp))]; rfl)
  have hdp : Dp s.stack := by
    refine ⟨hr, ?_, ?_⟩ <;> rw [hs]
    · intro x r hx
      cases l with
      | nil => exact absurd rfl hne
      | cons y l => cases hx; exact nm_html (hl _ (by simp)) (by decide)
    · clear hne hh hs
      induction l with
      | nil => exact Tabled.html he
      | cons y l ih => exact (ih fun x hx => hl x (by simp [hx])).other (hl y (by simp)) (by decide)
  unfold onInFrameset
  cases tok with
  | char c => exact Sat.ite (fun _ => Good.of (hi.char hr c)) fun _ => hi
  | comment t => exact Good.of (hi.comment hr t)
  | doctype d => exact hi
  | start t a f =>
    have hnt : t ≠ .k .template := ne_of hf.1 (by decide)
    refine Sat.ite (fun _ => Good.of (hi.htmlStart hr a)) fun _ => Sat.ite (fun hk => ?_) fun _ => Sat.ite (fun hk => Good.of (hi.insertPop hdp (Ins.of (is_not hk (by decide))) a)) fun _ =>
      Sat.ite (fun hk => Good.of (headStart_ok hc hdp hfit (noframes_head hk) hnt a)) fun _ => hi
    obtain ⟨d, e1, e2, e3, e4⟩ := insertHtml_ok hc hdp ⟨hnt, by rw [is_iff.mp hk]; simp, fun l' h' => (by rw [is_iff.mp hk] at h'; cases h'; exact hh),
      by rw [is_iff.mp hk]; simp⟩ a
    rw [e1]
    refine ⟨e4, ?_⟩
    show Mfit d s.mode _ (_ :: s.stack) s.fmt s.head
    rw [hm]
    refine ⟨⟨⟨s.dom.length, .html, t, a⟩ :: l, e, by rw [hs]; rfl, by simp, ?_, he⟩, hfm⟩
    intro x hx
    rcases List.mem_cons.mp hx with rfl | hx
    · exact ⟨rfl, .frameset, by simp, is_iff.mp hk⟩
    · exact hl x hx
  | fin t =>
    refine Sat.ite (fun _ => ?_) fun _ => hi
    refine cur_bind hr fun x r hx => Sat.ite (fun _ => hi) fun hn => ?_
    cases l with
    | nil =>
      rw [hs] at hx
      cases hx
      exact absurd (nm_is1 he) hn
    | cons y l =>
      rw [pop_eq (e := y) (l := l ++ [e]) hs, bind_ok]
      have hsub : List.Sublist (l ++ [e]) s.stack := by rw [hs]; exact List.sublist_cons_self _ _
      cases l with
      | nil =>
        show Good q _ (.ok (if e.is .frameset then _ else _))
        rw [nm_is he (by decide)]
        exact ⟨CoreOf.sub hc hsub, ⟨e, rfl, he⟩, hfm, 0, hh⟩
      | cons w l =>
        show Good q _ (.ok (if w.is .frameset then _ else _))
        rw [nm_is1 (hl w (by simp))]
        refine ⟨CoreOf.sub hc hsub, ?_⟩
        show Mfit s.dom s.mode _ _ s.fmt s.head
        rw [hm]
        exact ⟨⟨w :: l, e, rfl, by simp, fun x hx => hl x (by simp at hx ⊢; tauto), he⟩, hfm⟩
  | eof => exact cur_bind hr fun _ _ _ => ⟨hc.tops.wf, .inr ⟨0, hh⟩⟩

theorem onAfterFrameset_ok (hc : Core q s) (ho : OnlyHtml s.stack) (hfm : s.fmt = []) (hl : HasF s.dom) (hm : s.mode = .afterFrameset) {tok : Tok} (hf : Fine q tok) :
    Good q tok (onAfterFrameset tok s) := by
  have hfit : Fits s.dom s.mode s.stack s.fmt s.head := by rw [hm]; exact ⟨ho, hfm, hl⟩
  have hi : Inv q s := ⟨hc, hfit.mfit⟩
  have hr := ho.rooted
  unfold onAfterFrameset
  cases tok with
  | char c => exact Sat.ite (fun _ => Good.of (hi.char hr c)) fun _ => hi
  | comment t => exact Good.of (hi.comment hr t)
  | doctype d => exact hi
  | start t a f =>
    have hnt : t ≠ .k .template := ne_of hf.1 (by decide)
    exact Sat.ite (fun _ => Good.of (hi.htmlStart hr a)) fun _ =>
      Sat.ite (fun hk => Good.of (noframes_ok hc ho hfm hl (.inl hm) hk a)) fun _ => hi
  | fin t => exact Sat.ite (fun _ => ⟨hc, ho, hfm, hl⟩) fun _ => hi
  | eof => exact ⟨hc.tops.wf, .inr hl⟩

theorem reconstruct_nil (h : s.fmt = []) : reconstruct s = .ok s := by
  unfold reconstruct
  rw [h]
  show Except.ok { s with fmt := [] } = _
  rw [← h]

theorem onAfterAfterFrameset_ok (hc : Core q s) (ho : OnlyHtml s.stack) (hfm : s.fmt = []) (hl : HasF s.dom) (hm : s.mode = .afterAfterFrameset) {tok : Tok} (hf : Fine q tok) :
    Good q tok (onAfterAfterFrameset re tok s) := by
  have hfit : Fits s.dom s.mode s.stack s.fmt s.head := by rw [hm]; exact ⟨ho, hfm, hl⟩
  have hi : Inv q s := ⟨hc, hfit.mfit⟩
  have hr := ho.rooted
  unfold onAfterAfterFrameset
  cases tok with
  | char c =>
    refine Sat.ite (fun hw => ?_) fun _ => hi
    unfold onInBody
    dsimp only
    refine Sat.ite (fun _ => hi) fun _ => ?_
    rw [reconstruct_nil hfm, bind_ok]
    refine Sat.bind (hi.char hr c) fun s1 h1 => ?_
    rw [if_pos hw]
    exact h1
  | comment t => exact Good.of (hi.commentAt (.inl rfl) t)
  | doctype d => exact hi
  | start t a f =>
    have hnt : t ≠ .k .template := ne_of hf.1 (by decide)
    refine Sat.ite (fun hk => ?_) fun _ => Sat.ite (fun hk => Good.of (noframes_ok hc ho hfm hl (.inr hm) hk a)) fun _ => hi
    unfold onInBody bodyStart
    dsimp only
    rw [if_pos hk]
    exact Good.of (hi.htmlStart hr a)
  | fin t => exact hi
  | eof => exact ⟨hc.tops.wf, .inr hl⟩

/-! All modes. -/

theorem byMode_ok {tbl : List Nat → Bool} (hre : Again q re) (h : Inv q s) {tok : Tok} (hf : Fine q tok) : Good q tok (byMode tbl re tok s) := by
  have h2 := h.2
  unfold byMode
  cases hm : s.mode <;> dsimp only <;> (try rw [hm] at h2)
  case initial => exact onInitial_ok hre h.1 h2.1 h2.2.1 h2.2.2 hm hf
  case beforeHtml => exact onBeforeHtml_ok hre h.1 h2.1 h2.2.1 h2.2.2 hm hf
  case beforeHead => exact onBeforeHead_ok hre h.1 h2.1 h2.2.1 h2.2.2 hm hf
  case inHead => exact onInHead_ok hre h.1 h2.1 h2.2.1 h2.2.2 hm hf
  case inHeadNoscript => exact onInHeadNoscript_ok hre h.1 h2.1 h2.2.1 h2.2.2 hm hf
  case afterHead => exact onAfterHead_ok hre h.1 h2.1 h2.2.1 h2.2.2.1 h2.2.2.2 hm hf
  case inBody => exact onInBody_ok (z := .body) hre ⟨h.1, h2, .inl hm⟩ hf (fun _ _ _ _ _ => by decide) fun _ _ h => absurd rfl h
  case text => exact onText_ok hre h hm hf
  case inTable => exact onInTable_ok (z := .table) hre ⟨h.1, h2, .inl hm⟩ (by decide) hf
  case inTableText => exact onInTableText_ok hre h hm hf
  case inCaption => exact onInCaption_ok hre ⟨h.1, h2, .inl hm⟩ hf
  case inColumnGroup => exact onInColumnGroup_ok hre ⟨h.1, h2, .inl hm⟩ hf
  case inTableBody => exact onInTableBody_ok hre ⟨h.1, h2, .inl hm⟩ hf
  case inRow => exact onInRow_ok hre ⟨h.1, h2, .inl hm⟩ hf
  case inCell => exact onInCell_ok hre ⟨h.1, h2, .inl hm⟩ hf
  case inSelect => exact onInSelect_ok hre ⟨h.1, h2, .inl hm⟩ hf
  case inSelectInTable => exact onInSelectInTable_ok hre ⟨h.1, h2, .inr hm⟩ hf
  case inTemplate => exact h2.elim
  case afterBody => exact onAfterBody_ok hre h.1 h2 hm hf
  case inFrameset => exact onInFrameset_ok h.1 h2.1 h2.2 hm hf
  case afterFrameset => exact onAfterFrameset_ok h.1 h2.1 h2.2.1 h2.2.2 hm hf
  case afterAfterBody => exact onAfterAfterBody_ok hre h.1 h2 hm hf
  case afterAfterFrameset => exact onAfterAfterFrameset_ok h.1 h2.1 h2.2.1 h2.2.2 hm hf

theorem step_ok {tbl : List Nat → Bool} (hre : Again q re) (h : Inv q s) {tok : Tok} (hf : Fine q tok) : Good q tok (step tbl re tok s) := by
  unfold step
  cases hs : s.stack with
  | nil => exact byMode_ok hre h hf
  | cons e l =>
    have : byRules e tok = true := by
      have hn := (h.1.names e (by rw [hs]; simp)).1
      cases tok <;> simp [byRules, hn]
    dsimp only
    rw [if_pos this]
    exact byMode_ok hre h hf

theorem process_ok (tbl : List Nat → Bool) : ∀ n, Again q (process tbl n)
  | 0 => fun _ _ _ _ => .inl rfl
  | n + 1 => fun tok s hf h => by
    unfold process
    refine Sat.ite (fun hc => ?_) fun _ => ?_
    · have ht : tok = .char 10 := by simpa using (Bool.and_eq_true_iff.mp hc).2
      subst ht
      exact h
    exact step_ok (s := { s with omitLf := false }) (process_ok tbl n) h hf

theorem emit_ok (tbl : List Nat → Bool) (tok : Tok) (s : S) (hf : Fine q tok) (h : Inv q s) : Good q tok (emit tbl tok s) :=
  process_ok tbl _ tok _ hf h

theorem emits_ok (tbl : List Nat → Bool) : ∀ (l : List Tok) (s : S), Inv q s → (∀ tok ∈ l, Fine q tok) → (∀ tok ∈ l.dropLast, tok ≠ .eof) →
    Sat q (fun _ => True) (emits tbl l s)
  | [], _, _, _, _ => trivial
  | [tok], s, h, hf, _ => by
    unfold emits
    exact Sat.bind (emit_ok tbl tok s (hf tok (by simp)) h) fun _ _ => trivial
  | tok :: t2 :: l, s, h, hf, he => by
    unfold emits
    refine Sat.bind (emit_ok tbl tok s (hf tok (by simp)) h) fun s1 h1 => ?_
    exact emits_ok tbl (t2 :: l) s1 (After.of (he tok (by simp)) ▸ h1) (fun t ht => hf t (by simp at ht ⊢; tauto)) fun t ht => he t (by
      rw [List.dropLast_cons_of_ne_nil (by simp)]
      exact List.mem_cons_of_mem _ ht)

theorem init_inv : Inv q init := by
  refine ⟨?_, rfl, rfl, rfl⟩
  refine ⟨?_, ?_, ?_, ?_, ?_, ?_, ?_, rfl, ?_, ?_, ⟨Forest.wf_init, ?_, ?_, ?_, ?_, ?_, ?_⟩⟩ <;> simp [init]
  exact fun r hr => by cases hr

end Verif.Proof.HtmlTree.Safe
