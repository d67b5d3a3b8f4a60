import Verif.Proof.HtmlTreeSafe5
/- Tables, for C105. -/
namespace Verif.Proof.HtmlTree.Safe
open Verif.Model.HtmlTree
open Verif.Proof.HtmlTree.Forest (Kept Wf Deep Elem tagAt els Has)

variable {q : Prop} {s : S} {z : Zone} {re : Re}

/-- The zones of the modes that refer to "in table". -/
def tables : List Zone := [.table, .sec, .row]

theorem sc_table : ∀ e, Nm e [.html] → tableScope e = true := by
  rintro e ⟨h1, k, hk, h2⟩
  simp only [List.mem_singleton] at hk
  subst hk
  unfold tableScope
  rw [isIn_k h1 h2]
  decide

theorem sc_select : ∀ e, Nm e [.html] → selectScope e = true := by
  rintro e ⟨h1, k, hk, h2⟩
  simp only [List.mem_singleton] at hk
  subst hk
  unfold selectScope
  rw [isIn_k h1 h2]
  decide

/-- A state in a zone whatever its mode is; the mode is set afterwards. -/
theorem Body.go {z' : Zone} (h : Body q z s) {st : List Entry} (hs : List.Sublist st s.stack) (hz : Sh z' st) {m : Mode} (hm : Of z' m) :
    Body q z' { s with stack := st, mode := m } := ⟨CoreOf.sub h.1 hs, hz, hm⟩

theorem pop_pre {p : Entry → Bool} {pre base : List Entry} (hp : ∀ x ∈ pre, p x = false) : popUntil p (pre ++ base) = popUntil p base := by
  induction pre with
  | nil => rfl
  | cons e pre ih =>
    simp only [List.cons_append]
    conv_lhs => unfold popUntil
    rw [hp e (by simp)]
    simpa using ih fun x hx => hp x (by simp [hx])

theorem nm_is {e : Entry} {ks : List K} {x : K} (h : Nm e ks) (hx : x ∉ ks) : e.is x = false := by
  obtain ⟨h1, k, hk, h2⟩ := h
  rw [is_k h1 h2, beq_eq_false_iff_ne]
  rintro rfl
  exact hx hk

theorem nm_is1 {e : Entry} {k : K} (h : Nm e [k]) : e.is k = true := by
  obtain ⟨h1, x, hx, h2⟩ := h
  simp only [List.mem_singleton] at hx
  subst hx
  rw [is_k h1 h2]
  simp

theorem nm_isIn {e : Entry} {ks l : List K} (h : Nm e ks) (hl : ∀ x ∈ ks, x ∈ l) : e.isIn l = true := by
  obtain ⟨h1, k, hk, h2⟩ := h
  rw [isIn_k h1 h2]
  simpa using hl k hk

theorem popUntil_hd {p : Entry → Bool} {e : Entry} {l : List Entry} (h : p e = true) : popUntil p (e :: l) = l := by
  unfold popUntil; rw [h]; rfl

theorem popUntil_tl {p : Entry → Bool} {e : Entry} {l : List Entry} (h : p e = false) : popUntil p (e :: l) = popUntil p l := by
  conv_lhs => unfold popUntil
  rw [h]; rfl

/-- Popping the table leaves a place where tables may be. -/
theorem pop_table {st : List Entry} (h : Sh z st) (hz : z ∈ tables) : ∃ z' ∈ flows, Sh z' (popUntil (·.is .table) st) := by
  obtain ⟨pre, base, rfl, h1, h2⟩ := h
  rw [pop_pre fun x hx => plain_is (h1 x hx) (by decide)]
  have tab : ∀ {l : List Entry}, Base .table l → ∃ z' ∈ flows, Sh z' (popUntil (·.is .table) l) := by
    rintro l hl
    cases hl with
    | @table e z' pre' l' h3 h4 h5 h6 =>
      rw [popUntil_hd (nm_is1 h3)]
      exact ⟨z', h4, pre', l', rfl, h5, h6⟩
  have se : ∀ {l : List Entry}, Base .sec l → ∃ z' ∈ flows, Sh z' (popUntil (·.is .table) l) := by
    rintro l hl
    cases hl with
    | sec h3 h4 => rw [popUntil_tl (nm_is h3 (by decide))]; exact tab h4
  cases h2 with
  | table h3 h4 h5 h6 => exact tab (.table h3 h4 h5 h6)
  | sec h3 h4 => exact se (.sec h3 h4)
  | row h3 h4 => rw [popUntil_tl (nm_is h3 (by decide))]; exact se h4
  | _ => exact absurd hz (by decide)

theorem toTable_suffix : ∀ st, toTable st <:+ st
  | [] => by simp [toTable]
  | e :: l => by
    unfold toTable
    split
    · exact List.suffix_rfl
    · split
      · exact List.suffix_rfl
      · exact (toTable_suffix l).trans (List.suffix_cons _ _)

theorem toTable_tl {e : Entry} {l : List Entry} (h1 : e.ns = .html) (h2 : e.tag.mem [.table, .template, .html] = false) : toTable (e :: l) = toTable l := by
  conv_lhs => unfold toTable
  simp [h1, h2]

theorem nm_mem {e : Entry} {ks l : List K} (h : Nm e ks) (hd : ∀ x ∈ ks, x ∉ l) : e.tag.mem l = false := by
  obtain ⟨h1, k, hk, h2⟩ := h
  rw [h2]
  simpa [Tag.mem] using hd k hk

theorem plain_mem {e : Entry} {l : List K} (h : Plain e) (hl : ∀ x ∈ l, x ∈ structural) : e.tag.mem l = false := by
  have := plain_isIn h hl
  unfold Entry.isIn at this
  rw [h.1] at this
  simpa using this

theorem toTable_base {st : List Entry} (h : Sh z st) (hz : z ∈ tables) : Base .table (toTable st) := by
  obtain ⟨pre, base, rfl, h1, h2⟩ := h
  induction pre with
  | cons e pre ih =>
    rw [List.cons_append, toTable_tl (h1 e (by simp)).1 (plain_mem (h1 e (by simp)) (by decide))]
    exact ih fun x hx => h1 x (by simp [hx])
  | nil =>
    rw [List.nil_append]
    have tab : ∀ {l : List Entry}, Base .table l → Base .table (toTable l) := by
      rintro l hl
      have hl' := hl
      cases hl with
      | @table e z' pre' l' h3 h4 h5 h6 =>
        have : e.tag.mem [.table, .template, .html] = true := by
          have := nm_isIn (l := [.table, .template, .html]) h3 (by decide)
          unfold Entry.isIn at this
          rw [Bool.and_eq_true] at this
          exact this.2
        unfold toTable
        simpa [this] using hl'
    have se : ∀ {l : List Entry}, Base .sec l → Base .table (toTable l) := by
      rintro l hl
      cases hl with
      | sec h3 h4 => rw [toTable_tl h3.1 (nm_mem h3 (by decide))]; exact tab h4
    cases h2 with
    | table h3 h4 h5 h6 => exact tab (.table h3 h4 h5 h6)
    | sec h3 h4 => exact se (.sec h3 h4)
    | row h3 h4 => rw [toTable_tl h3.1 (nm_mem h3 (by decide))]; exact se h4
    | _ => exact absurd hz (by decide)

/-- A state with the table on top. -/
theorem Body.toTable (h : Body q z s) (hz : z ∈ tables) : Core q s.toTable ∧ Base .table s.toTable.stack :=
  ⟨CoreOf.sub h.1 (toTable_suffix _).sublist, toTable_base h.2.1 hz⟩

theorem reset_ok {st : List Entry} (h : Core q s) (hs : List.Sublist st s.stack) (hz : Sh z st) :
    ∃ s', reset { s with stack := st } = .ok s' ∧ Body q z s' ∧ s'.mode = z.mode := by
  refine ⟨{ s with stack := st, mode := z.mode }, ?_, ⟨CoreOf.sub h hs, hz, .inl rfl⟩, rfl⟩
  unfold reset
  have : resetMode s.head s.tmpl st = .ok z.mode := by rw [h.tmpls]; exact reset_sh hz s.head
  dsimp only
  rw [this]
  rfl

theorem heads_tables {t : Tag} (h1 : t ≠ .k .table) (h2 : ¬ t.mem [.body, .caption, .col, .colgroup, .html, .tbody, .td, .tfoot, .th, .thead, .tr] = true)
    (hz : z ∈ tables) : t.mem z.heads = false := by
  refine none_of fun k hk => ?_
  simp only [tables, List.mem_cons, List.not_mem_nil, or_false] at hz
  rcases hz with rfl | rfl | rfl
  · simp only [Zone.heads, List.mem_singleton] at hk; subst hk; exact h1
  · refine ne_mem h2 ?_
    revert k
    decide
  · refine ne_mem h2 ?_
    revert k
    decide

theorem tableElse_ok (hre : Again q re) (h : Body q z s) {tok : Tok} (hf : Fine q tok) (hz : ∀ t a f, tok = .start t a f → t = .k .table → z ∈ flows)
    (he : ∀ t, tok = .fin t → z ≠ .body → t.mem z.heads = false) : Good q tok (inTableElse re tok s) := by
  unfold inTableElse
  have h' : Body q z { s with foster := true } := h
  exact Sat.bind (onInBody_ok hre h' hf hz he) fun s1 h1 => by cases tok <;> exact h1

theorem tableStart_ok (hre : Again q re) (h : Body q z s) (hz : z ∈ tables) {t : Tag} {attrs : List At} {self : Bool} (hf : Fine q (.start t attrs self)) :
    Sat q (Inv q) (tableStart re t attrs self s) := by
  have hnt : t ≠ .k .template := ne_of hf.1 (by decide)
  obtain ⟨hc, hb⟩ := h.toTable hz
  have hroot : Dp s.toTable.stack := hb.sh.dp
  have hcm : Core q (pushMarker s.toTable) := CoreOf.fmt' hc fun e he => by
    rcases List.mem_cons.mp he with he | he
    · cases he
    · exact he
  unfold tableStart
  refine Sat.ite (fun hk => ?_) fun n1 => ?_
  · obtain ⟨d, e1, e2, e3, e4⟩ := insertHtml_ok hcm hroot (Ins.of (is_not hk (by decide))) attrs
    rw [e1]
    exact ⟨e4, (Base.caption ⟨rfl, .caption, by simp, is_iff.mp hk⟩ hb).sh⟩
  refine Sat.ite (fun hk => ?_) fun n2 => ?_
  · obtain ⟨d, e1, e2, e3, e4⟩ := insertHtml_ok hc hroot (Ins.of (is_not hk (by decide))) attrs
    rw [e1]
    exact ⟨e4, (Base.group ⟨rfl, .colgroup, by simp, is_iff.mp hk⟩ hb).sh⟩
  refine Sat.ite (fun hk => ?_) fun n3 => ?_
  · obtain ⟨d, e1, e2, e3, e4⟩ := insertHtml_ok (t := .k .colgroup) hc hroot (Ins.k (by decide)) []
    rw [e1]
    exact (hre (.start t attrs self) { s.toTable with dom := d, stack := _, mode := .inColumnGroup } hf
      ⟨e4, (Base.group ⟨rfl, .colgroup, by simp, rfl⟩ hb).sh⟩).to (by simp)
  refine Sat.ite (fun hk => ?_) fun n4 => ?_
  · obtain ⟨d, e1, e2, e3, e4⟩ := insertHtml_ok hc hroot (Ins.of (mem_not hk (by decide))) attrs
    rw [e1]
    refine ⟨e4, (Base.sec ⟨rfl, ?_⟩ hb).sh⟩
    cases t with
    | other => cases hk
    | k x => exact ⟨x, by simpa [Tag.mem] using hk, rfl⟩
  refine Sat.ite (fun hk => ?_) fun n5 => ?_
  · obtain ⟨d, e1, e2, e3, e4⟩ := insertHtml_ok (t := .k .tbody) hc hroot (Ins.k (by decide)) []
    rw [e1]
    exact (hre (.start t attrs self) { s.toTable with dom := d, stack := _, mode := .inTableBody } hf
      ⟨e4, (Base.sec ⟨rfl, .tbody, by simp, rfl⟩ hb).sh⟩).to (by simp)
  refine Sat.ite (fun hk => ?_) fun n6 => ?_
  · refine any_bind sc_table h.root fun b => Sat.ite (fun _ => ?_) fun _ => h.inv
    obtain ⟨z', hz', hs'⟩ := pop_table h.2.1 hz
    obtain ⟨s1, e1, e2, -⟩ := reset_ok h.1 (popUntil_suffix _ _).sublist hs'
    have e1 : reset (s.popUntil (·.is .table)) = .ok s1 := e1
    rw [e1]
    exact (hre _ _ hf e2.inv).to (by simp)
  refine Sat.ite (fun hk => ?_) fun n7 => ?_
  · refine headStart_ok h.1 h.dp h.fits ?_ hnt attrs
    cases t with
    | other => cases hk
    | k x =>
      simp only [Tag.mem, List.contains_eq_mem, decide_eq_true_eq, List.mem_cons, List.not_mem_nil, or_false] at hk
      rcases hk with rfl | rfl | rfl <;> rfl
  refine Sat.ite (fun hk => inv_of (h.insertPop (Ins.of (is_not (by rw [Bool.and_eq_true] at hk; exact hk.1) (by decide))) attrs)) fun n8 => ?_
  refine Sat.ite (fun hk => ?_) fun n9 => ?_
  · refine Sat.ite (fun _ => h.inv) fun _ => ?_
    obtain ⟨d, e1, e2, e3, e4⟩ := insertHtml_ok h.1 h.dp (Ins.of (is_not hk (by decide))) attrs
    rw [e1]
    refine Body.inv (z := z) (s := { s with dom := d, form := some s.dom.length }) ⟨CoreOf.form' (CoreOf.up h.1 e2) ?_ ?_, h.2⟩
    · intro x hx
      cases hx
      refine ⟨e3, fun y hy hye => ?_⟩
      have := h.1.small y hy
      omega
    · intro x hx hh
      cases hx
      exact absurd (h.1.heads _ hh).1 (Nat.lt_irrefl _)
  · refine (tableElse_ok hre h hf ?_ ?_).to (by simp)
    · intro t' a f e ht
      cases e
      exact absurd ht (ne_is n6)
    · intro t' e; cases e

theorem onInTable_ok (hre : Again q re) (h : Body q z s) (hz : z ∈ tables) {tok : Tok} (hf : Fine q tok) : Good q tok (onInTable re tok s) := by
  cases tok with
  | char c =>
    refine cur_bind h.root fun e l he => Sat.ite (fun _ => ?_) fun _ => ?_
    · refine hre _ _ hf ⟨h.1, ?_, ?_⟩
      · rcases h.2.2 with hm | ⟨rfl, -⟩
        · simp only [tables, List.mem_cons, List.not_mem_nil, or_false] at hz
          show s.mode = _ ∨ s.mode = _ ∨ s.mode = _
          rw [hm]
          rcases hz with rfl | rfl | rfl <;> simp [Zone.mode]
        · exact absurd hz (by decide)
      · exact h.fits
    · exact tableElse_ok hre h hf (fun t a f e => by cases e) fun t e => by cases e
  | comment t => exact Good.of (inv_of (h.comment t))
  | doctype d => exact Good.of (r := .ok s) h.inv
  | start t a f => exact Good.of (tableStart_ok hre h hz hf)
  | fin t =>
    refine Sat.ite (fun hk => ?_) fun n1 => Sat.ite (fun _ => h.inv) fun n2 => ?_
    · refine any_bind sc_table h.root fun b => Sat.ite (fun _ => ?_) fun _ => h.inv
      obtain ⟨z', hz', hs'⟩ := pop_table h.2.1 hz
      obtain ⟨s1, e1, e2, -⟩ := reset_ok h.1 (popUntil_suffix _ _).sublist hs'
      have e1 : reset (s.popUntil (·.is .table)) = .ok s1 := e1
      rw [e1]
      refine tableElse_ok hre e2 hf (fun t a f e => by cases e) fun t' e _ => ?_
      cases e
      rw [is_iff.mp hk]
      simp only [flows, List.mem_cons, List.not_mem_nil, or_false] at hz'
      rcases hz' with rfl | rfl | rfl <;> rfl
    · exact tableElse_ok hre h hf (fun t a f e => by cases e) fun t' e _ => by cases e; exact heads_tables (ne_is n1) n2 hz
  | eof =>
    show Good q .eof (onInBody re .eof s)
    rw [body_eof h.1]
    exact h.done

/-! "In table text". -/

/-- The state while the characters are inserted. -/
def TextSt (q : Prop) (z : Zone) (s : S) : Prop := Core q s ∧ Sh z s.stack ∧ s.orig = z.mode

theorem fosterChars_ok : ∀ (l : List Nat) (s : S), TextSt q z s → Sat q (TextSt q z) (fosterChars re l s)
  | [], s, h => h
  | c :: l, s, h => by
    unfold fosterChars inTableElse
    have hb := bodyChar_ok (re := re) (s := { s with foster := true }) h.1 h.2.1 c
    simp only [bind_assoc]
    refine Sat.bind hb fun s1 h1 => ?_
    rw [bind_ok]
    refine fosterChars_ok l _ ⟨h1.1, h1.2.1, ?_⟩
    exact h1.2.2.2.1.trans h.2.2

theorem insertChars_ok : ∀ (l : List Nat) (s : S), TextSt q z s → Sat q (TextSt q z) (insertChars l s)
  | [], s, h => h
  | c :: l, s, h => by
    unfold insertChars
    obtain ⟨d, h1, h2, -⟩ := insertChar_ok h.1 h.2.1.rooted c
    rw [h1, bind_ok]
    exact insertChars_ok l _ ⟨h2, h.2⟩

theorem onInTableText_ok (hre : Again q re) (h : Inv q s) (hm : s.mode = .inTableText) {tok : Tok} (hf : Fine q tok) : Good q tok (onInTableText re tok s) := by
  obtain ⟨hc, hfit⟩ := h
  have hfit' := hfit
  rw [hm] at hfit
  obtain ⟨ho, hfit⟩ := hfit
  have hz : ∃ z, s.orig = z.mode ∧ Sh z s.stack := by
    rcases ho with ho | ho | ho <;> rw [ho] at hfit
    · exact ⟨.table, ho, hfit⟩
    · exact ⟨.sec, ho, hfit⟩
    · exact ⟨.row, ho, hfit⟩
  obtain ⟨z, hz, hsh⟩ := hz
  have go : ∀ tok, Fine q tok → Good q tok (do
      let s ← if s.pending.any fun c => !ws c then fosterChars re s.pending s else insertChars s.pending s
      re tok (s.to s.orig)) := by
    intro tok hf
    refine Sat.jp (Q := TextSt q z) (Sat.ite (fun _ => fosterChars_ok _ _ ⟨hc, hsh, hz⟩) fun _ => insertChars_ok _ _ ⟨hc, hsh, hz⟩) fun s1 h1 => ?_
    exact hre _ _ hf (Body.inv (z := z) ⟨h1.1, h1.2.1, .inl h1.2.2⟩)
  cases tok with
  | char c =>
    refine Sat.ite (fun _ => ⟨hc, hfit'⟩) fun _ => ⟨hc, hfit'⟩
  | _ => exact go _ hf

/-! "In caption", "in column group". -/

theorem closeCaption_ok (h : Body q .caption s) : Sat q (Body q .table) (closeCaption s) := by
  unfold closeCaption
  refine cur_bind (h.implied _).root fun _ _ _ => ?_
  obtain ⟨pre, base, hs, h1, h2⟩ := (h.implied fun _ => false).2.1
  cases h2 with
  | @caption e r h3 h4 =>
    have : popUntil (·.is .caption) (s.implied fun _ => false).stack = r := by
      rw [hs, pop_pre fun x hx => plain_is (h1 x hx) (by decide), popUntil_hd (nm_is1 h3)]
    refine ⟨CoreOf.fmt' (CoreOf.sub (h.implied fun _ => false).1 (popUntil_suffix _ _).sublist) (clear_sub _), ?_, .inl rfl⟩
    show Sh .table (popUntil (·.is .caption) (s.implied fun _ => false).stack)
    rw [this]
    exact h4.sh

theorem captionElse_ok (hre : Again q re) (h : Body q .caption s) {tok : Tok} (hf : Fine q tok) : Good q tok (captionElse re tok s) := by
  unfold captionElse
  refine any_bind sc_table h.root fun b => Sat.ite (fun _ => ?_) fun _ => h.after
  exact Sat.bind (closeCaption_ok h) fun s1 h1 => hre _ _ hf h1.inv

theorem onInCaption_ok (hre : Again q re) (h : Body q .caption s) {tok : Tok} (hf : Fine q tok) : Good q tok (onInCaption re tok s) := by
  have body : (∀ t, tok = .fin t → t ≠ .k .caption) → Good q tok (onInBody re tok s) := fun he =>
    onInBody_ok hre h hf (fun _ _ _ _ _ => by decide) fun t e _ => none_of fun k hk => by
      simp only [Zone.heads, List.mem_singleton] at hk
      subst hk
      exact he t e
  unfold onInCaption
  cases tok with
  | start t a f => exact Sat.ite (fun _ => captionElse_ok hre h hf) fun _ => body fun t e => by cases e
  | fin t =>
    refine Sat.ite (fun _ => ?_) fun n1 => Sat.ite (fun _ => captionElse_ok hre h hf) fun _ => Sat.ite (fun _ => h.inv) fun _ => body fun t' e => ?_
    · refine any_bind sc_table h.root fun b => Sat.ite (fun _ => ?_) fun _ => h.inv
      exact Good.of (inv_of (closeCaption_ok h))
    · cases e; exact ne_is n1
  | char c => exact body fun t e => by cases e
  | comment c => exact body fun t e => by cases e
  | doctype c => exact body fun t e => by cases e
  | eof => exact body fun t e => by cases e

/-- The column group on top is popped. -/
theorem popGroup (h : Body q .group s) {e : Entry} {l : List Entry} (hs : s.stack = e :: l) (he : e.is .colgroup = true) :
    ∃ s', pop s = .ok s' ∧ Body q .table (s'.to .inTable) := by
  refine ⟨{ s with stack := l }, by unfold pop; rw [hs], CoreOf.sub h.1 (by rw [hs]; exact List.sublist_cons_self _ _), ?_, .inl rfl⟩
  obtain ⟨pre, base, hs', h1, h2⟩ := h.2.1
  show Sh .table l
  rw [hs] at hs'
  cases pre with
  | nil =>
    cases h2 with
    | group h3 h4 => cases hs'; exact h4.sh
  | cons x pre =>
    cases hs'
    have := plain_is (h1 e (by simp)) (x := .colgroup) (by decide)
    rw [he] at this
    cases this

theorem colgroupElse_ok (hre : Again q re) (h : Body q .group s) {tok : Tok} (hf : Fine q tok) : Good q tok (colgroupElse re tok s) := by
  unfold colgroupElse
  refine cur_bind h.root fun e l hs => Sat.ite (fun he => ?_) fun _ => h.after
  obtain ⟨s', h1, h2⟩ := popGroup h hs he
  rw [h1]
  exact hre _ _ hf h2.inv

theorem onInColumnGroup_ok (hre : Again q re) (h : Body q .group s) {tok : Tok} (hf : Fine q tok) : Good q tok (onInColumnGroup re tok s) := by
  unfold onInColumnGroup
  cases tok with
  | char c => exact Sat.ite (fun _ => Good.of (inv_of (h.char c))) fun _ => colgroupElse_ok hre h hf
  | comment t => exact Good.of (inv_of (h.comment t))
  | doctype d => exact h.inv
  | start t a f =>
    have hnt : t ≠ .k .template := ne_of hf.1 (by decide)
    refine Sat.ite (fun _ => Good.of (inv_of (h.htmlStart a))) fun _ => Sat.ite (fun hk => Good.of (inv_of (h.insertPop (Ins.of (is_not hk (by decide))) a))) fun _ =>
      Sat.ite (fun hk => absurd (is_iff.mp hk) hnt) fun _ => colgroupElse_ok hre h hf
  | fin t =>
    refine Sat.ite (fun _ => ?_) fun _ => Sat.ite (fun _ => h.inv) fun _ => Sat.ite (fun _ => ?_) fun _ => colgroupElse_ok hre h hf
    · refine cur_bind h.root fun e l hs => Sat.ite (fun he => ?_) fun _ => h.inv
      obtain ⟨s', h1, h2⟩ := popGroup h hs he
      rw [h1]
      exact h2.inv
    · rw [templateEnd_eq h.1]
      exact h.inv
  | eof =>
    show Good q .eof (onInBody re .eof s)
    rw [body_eof h.1]
    exact h.done

/-! "In table body", "in row", "in cell". -/

theorem backTo_pre {l : List K} {pre base : List Entry} (hp : ∀ x ∈ pre, Entry.isIn x l = false) : backTo l (pre ++ base) = backTo l base := by
  induction pre with
  | nil => rfl
  | cons e pre ih =>
    simp only [List.cons_append]
    conv_lhs => unfold backTo
    rw [hp e (by simp)]
    simpa using ih fun x hx => hp x (by simp [hx])

theorem backTo_hd {l : List K} {e : Entry} {st : List Entry} (h : e.isIn l = true) : backTo l (e :: st) = .ok (e :: st) := by
  unfold backTo; rw [h]; rfl

/-- Back to the element of the zone. -/
theorem back_ok {l : List K} (h : Body q z s) (hl : ∀ k ∈ z.heads, k ∈ l) (hd : ∀ k ∈ l, k ∈ structural) :
    ∃ e r, s.backTo l = .ok { s with stack := e :: r } ∧ Base z (e :: r) ∧ CoreOf q s.dom (e :: r) s.fmt s.form s.head s.tmpl := by
  obtain ⟨pre, base, hs, h1, h2⟩ := h.2.1
  have : ∃ e r, base = e :: r := by
    obtain ⟨e, r, -, hb, -⟩ := base_head h2
    exact ⟨e, r, hb⟩
  obtain ⟨e, r, rfl⟩ := this
  have hb : backTo l s.stack = .ok (e :: r) := by
    rw [hs, backTo_pre fun x hx => plain_isIn (h1 x hx) hd, backTo_hd (nm_isIn (base_heads h2) hl)]
  refine ⟨e, r, ?_, h2, CoreOf.sub h.1 (by rw [hs]; exact List.sublist_append_right _ _)⟩
  unfold S.backTo
  rw [hb]
  rfl

theorem base_sec {e : Entry} {r : List Entry} (h : Base .sec (e :: r)) : Base .table r := by cases h; assumption
theorem base_row {e : Entry} {r : List Entry} (h : Base .row (e :: r)) : Base .sec r := by cases h; assumption
theorem base_cell {e : Entry} {r : List Entry} (h : Base .cell (e :: r)) : Base .row r := by cases h; assumption

theorem popBody_ok (h : Body q .sec s) : ∃ s', (s.backTo bodyContext >>= pop) = .ok s' ∧ Body q .table (s'.to .inTable) := by
  obtain ⟨e, r, h1, h2, h3⟩ := back_ok (l := bodyContext) h (by decide) (by decide)
  refine ⟨{ s with stack := r }, ?_, CoreOf.sub h3 (List.sublist_cons_self _ _), (base_sec h2).sh, .inl rfl⟩
  rw [h1]
  rfl

theorem leaveBody_ok (hre : Again q re) (h : Body q .sec s) {tok : Tok} (hf : Fine q tok) : Good q tok (leaveBody re tok s) := by
  unfold leaveBody
  refine any_bind sc_table h.root fun b => Sat.ite (fun _ => ?_) fun _ => h.after
  obtain ⟨s', h1, h2⟩ := popBody_ok h
  rw [← bind_assoc, h1]
  exact hre _ _ hf h2.inv

theorem onInTableBody_ok (hre : Again q re) (h : Body q .sec s) {tok : Tok} (hf : Fine q tok) : Good q tok (onInTableBody re tok s) := by
  obtain ⟨e, r, h1, h2, h3⟩ := back_ok (l := bodyContext) h (by decide) (by decide)
  have tab : Good q tok (onInTable re tok s) := onInTable_ok hre h (by decide) hf
  unfold onInTableBody
  cases tok with
  | start t a f =>
    have hnt : t ≠ .k .template := ne_of hf.1 (by decide)
    refine Sat.ite (fun hk => ?_) fun _ => Sat.ite (fun hk => ?_) fun _ => Sat.ite (fun _ => leaveBody_ok hre h hf) fun _ => tab
    · rw [h1, bind_ok]
      obtain ⟨d, e1, e2, e3, e4⟩ := insertHtml_ok (s := { s with stack := e :: r }) h3 h2.sh.dp (Ins.of (is_not hk (by decide))) a
      rw [e1]
      exact ⟨e4, (Base.row ⟨rfl, .tr, by simp, is_iff.mp hk⟩ h2).sh⟩
    · rw [h1, bind_ok]
      obtain ⟨d, e1, e2, e3, e4⟩ := insertHtml_ok (s := { s with stack := e :: r }) (t := .k .tr) h3 h2.sh.dp (Ins.k (by decide)) []
      rw [e1]
      exact hre _ _ hf ⟨e4, (Base.row ⟨rfl, .tr, by simp, rfl⟩ h2).sh⟩
  | fin t =>
    refine Sat.ite (fun hk => ?_) fun _ => Sat.ite (fun _ => leaveBody_ok hre h hf) fun _ => Sat.ite (fun _ => h.inv) fun _ => tab
    refine any_bind sc_table h.root fun b => Sat.ite (fun _ => ?_) fun _ => h.inv
    obtain ⟨s', h1, h2⟩ := popBody_ok h
    rw [← bind_assoc, h1]
    exact h2.inv
  | _ => exact tab

theorem popRow_ok (h : Body q .row s) : ∃ s', popRow s = .ok s' ∧ Body q .sec s' := by
  obtain ⟨e, r, h1, h2, h3⟩ := back_ok (l := rowContext) h (by decide) (by decide)
  refine ⟨{ s with stack := r, mode := .inTableBody }, ?_, CoreOf.sub h3 (List.sublist_cons_self _ _), (base_row h2).sh, .inl rfl⟩
  unfold popRow
  rw [h1, bind_ok]
  have : assertCur { s with stack := e :: r } .tr = .ok () := by
    show (if e.is .tr then _ else _) = _
    rw [nm_is1 (base_heads h2)]
    rfl
  rw [this]
  rfl

theorem leaveRow_ok (hre : Again q re) (h : Body q .row s) {tok : Tok} (hf : Fine q tok) : Good q tok (leaveRow re tok s) := by
  unfold leaveRow
  refine any_bind sc_table h.root fun b => Sat.ite (fun _ => ?_) fun _ => h.after
  obtain ⟨s', h1, h2⟩ := popRow_ok h
  rw [h1]
  exact hre _ _ hf h2.inv

theorem onInRow_ok (hre : Again q re) (h : Body q .row s) {tok : Tok} (hf : Fine q tok) : Good q tok (onInRow re tok s) := by
  obtain ⟨e, r, h1, h2, h3⟩ := back_ok (l := rowContext) h (by decide) (by decide)
  have tab : Good q tok (onInTable re tok s) := onInTable_ok hre h (by decide) hf
  unfold onInRow
  cases tok with
  | start t a f =>
    have hnt : t ≠ .k .template := ne_of hf.1 (by decide)
    refine Sat.ite (fun hk => ?_) fun _ => Sat.ite (fun _ => leaveRow_ok hre h hf) fun _ => tab
    rw [h1, bind_ok]
    obtain ⟨d, e1, e2, e3, e4⟩ := insertHtml_ok (s := { s with stack := e :: r }) h3 h2.sh.dp (Ins.of (mem_not hk (by decide))) a
    rw [e1]
    refine Body.inv (z := .cell) (Body.marker ⟨e4, (Base.cell ⟨rfl, ?_⟩ h2).sh, .inl rfl⟩)
    cases t with
    | other => cases hk
    | k x =>
      refine ⟨x, ?_, rfl⟩
      simp only [Tag.mem, List.contains_eq_mem, decide_eq_true_eq, List.mem_cons, List.not_mem_nil, or_false] at hk ⊢
      exact hk.symm
  | fin t =>
    refine Sat.ite (fun hk => ?_) fun _ => Sat.ite (fun _ => leaveRow_ok hre h hf) fun _ => Sat.ite (fun _ => ?_) fun _ => Sat.ite (fun _ => h.inv) fun _ => tab
    · refine any_bind sc_table h.root fun b => Sat.ite (fun _ => ?_) fun _ => h.inv
      obtain ⟨s', h1, h2⟩ := popRow_ok h
      rw [h1]
      exact h2.inv
    · refine any_bind sc_table h.root fun b => Sat.ite (fun _ => ?_) fun _ => h.inv
      refine any_bind sc_table h.root fun b => ?_
      obtain ⟨s', h1, h2⟩ := popRow_ok h
      rw [h1]
      exact hre _ _ hf h2.inv
  | _ => exact tab

theorem implied_pre {keep : Entry → Bool} {base : List Entry} (h : implied keep base = base) : ∀ {pre : List Entry}, (∀ x ∈ pre, Plain x) →
    ∃ pre', implied keep (pre ++ base) = pre' ++ base ∧ ∀ x ∈ pre', Plain x
  | [], _ => ⟨[], h, by simp⟩
  | e :: pre, hp => by
    simp only [List.cons_append]
    unfold Verif.Model.HtmlTree.implied
    split
    · exact ⟨e :: pre, rfl, hp⟩
    · split
      · exact implied_pre h fun x hx => hp x (by simp [hx])
      · exact ⟨e :: pre, rfl, hp⟩

theorem implied_cell {e : Entry} {r : List Entry} (h : Base .cell (e :: r)) : implied (fun _ => false) (e :: r) = e :: r := by
  unfold Verif.Model.HtmlTree.implied
  have h' : Nm e [.td, .th] := base_heads h
  obtain ⟨h1, k, hk, h2⟩ := h'
  rw [isIn_k h1 h2]
  have : ∀ k ∈ [K.td, .th], [K.dd, .dt, .li, .optgroup, .option, .p, .rb, .rp, .rt, .rtc].contains k = false := by decide
  rw [this k hk]
  simp

/-- The cell is closed, by a test that the cell passes. -/
theorem popCell (h : Body q .cell s) {p : Entry → Bool} (hp : ∀ x, Plain x → p x = false) {pre r : List Entry} {e : Entry} (hs : s.stack = pre ++ e :: r)
    (h1 : ∀ x ∈ pre, Plain x) (h2 : Base .cell (e :: r)) (hc : p e = true) :
    Body q .row (((s.implied fun _ => false).popUntil p).clearFmt.to .inRow) := by
  obtain ⟨pre', h3, h4⟩ := implied_pre (implied_cell h2) h1
  rw [← hs] at h3
  refine ⟨CoreOf.fmt' (CoreOf.sub (h.implied fun _ => false).1 (popUntil_suffix _ _).sublist) (clear_sub _), ?_, .inl rfl⟩
  show Sh .row (popUntil p (implied (fun _ => false) s.stack))
  rw [h3, pop_pre fun x hx => hp x (h4 x hx), popUntil_hd hc]
  exact (base_cell h2).sh

theorem cell_parts (h : Body q .cell s) : ∃ pre e r, s.stack = pre ++ e :: r ∧ (∀ x ∈ pre, Plain x) ∧ Base .cell (e :: r) := by
  obtain ⟨pre, base, hs, h1, h2⟩ := h.2.1
  obtain ⟨c, r, ks, rfl, -⟩ := base_head h2
  exact ⟨pre, c, r, hs, h1, h2⟩

theorem closeCell_ok (h : Body q .cell s) : Sat q (Body q .row) (closeCell s) := by
  unfold closeCell
  obtain ⟨pre, e, r, hs, h1, h2⟩ := cell_parts h
  exact cur_bind (h.implied _).root fun _ _ _ => popCell h (fun x hx => plain_isIn hx (by decide)) hs h1 h2 (nm_isIn (base_heads h2) (by decide))

theorem nm_isTag {e : Entry} {ks : List K} {t : Tag} (h : Nm e ks) (ht : ∀ k ∈ ks, t ≠ .k k) : e.isTag t = false := by
  obtain ⟨h1, k, hk, h2⟩ := h
  unfold Entry.isTag
  rw [h2, Bool.and_eq_false_iff]
  right
  rw [beq_eq_false_iff_ne]
  exact fun hc => ht k hk hc.symm

theorem plain_isTag {e : Entry} {t : Tag} {l : List K} (h : Plain e) (ht : t.mem l = true) (hl : ∀ k ∈ l, k ∈ structural) : e.isTag t = false := by
  by_contra hc
  have := (isTag_eq (by simpa using hc)).2
  have h2 := h.2
  rw [this] at h2
  cases t with
  | other => cases ht
  | k x =>
    simp only [Tag.mem, List.contains_eq_mem, decide_eq_true_eq, decide_eq_false_iff_not] at ht h2
    exact h2 (hl x ht)

theorem scope_tl {sc p : Entry → Bool} {e : Entry} {l : List Entry} (h1 : p e = false) (h2 : sc e = false) : inScope sc p (e :: l) = inScope sc p l := by
  conv_lhs => unfold inScope
  rw [h1, h2]
  rfl

theorem scope_pre {sc p : Entry → Bool} {pre base : List Entry} (h : ∀ x ∈ pre, p x = false ∧ sc x = false) : inScope sc p (pre ++ base) = inScope sc p base := by
  induction pre with
  | nil => rfl
  | cons e pre ih =>
    rw [List.cons_append, scope_tl (h e (by simp)).1 (h e (by simp)).2]
    exact ih fun x hx => h x (by simp [hx])

theorem nm_scope {e : Entry} {ks : List K} (h : Nm e ks) (hk : ∀ k ∈ ks, k ∉ [K.html, .table, .template]) : tableScope e = false := by
  obtain ⟨h1, k, hk', h2⟩ := h
  unfold tableScope
  rw [isIn_k h1 h2]
  simpa using hk k hk'

/-- A cell of a name is in scope where the cell is of that name. -/
theorem cell_scope {t : Tag} (ht : t.mem [.td, .th] = true) {pre r : List Entry} {e : Entry} (h1 : ∀ x ∈ pre, Plain x) (h2 : Base .cell (e :: r)) :
    inScope tableScope (·.isTag t) (pre ++ e :: r) = .ok (e.isTag t) := by
  rw [scope_pre fun x hx => ⟨plain_isTag (h1 x hx) ht (by decide), show tableScope x = false from plain_isIn (h1 x hx) (by decide)⟩]
  have ne : ∀ {x : Entry} {ks : List K}, Nm x ks → (∀ k ∈ ks, k ∉ [K.td, .th]) → x.isTag t = false := by
    intro x ks hx hk
    refine nm_isTag hx fun k hk' he => hk k hk' ?_
    rw [he] at ht
    simpa [Tag.mem] using ht
  by_cases hc : e.isTag t = true
  · unfold inScope
    rw [hc]
    rfl
  · have hc : e.isTag t = false := by simpa using hc
    rw [scope_tl hc (nm_scope (base_heads h2) (by decide)), hc]
    cases base_cell h2 with
    | row h3 h4 =>
      rw [scope_tl (ne h3 (by decide)) (nm_scope h3 (by decide))]
      cases h4 with
      | sec h5 h6 =>
        rw [scope_tl (ne h5 (by decide)) (nm_scope h5 (by decide))]
        cases h6 with
        | table h7 h8 h9 h10 =>
          unfold inScope
          rw [ne h7 (by decide), show tableScope _ = true from nm_isIn h7 (by decide)]
          rfl

theorem onInCell_ok (hre : Again q re) (h : Body q .cell s) {tok : Tok} (hf : Fine q tok) : Good q tok (onInCell re tok s) := by
  have body : (∀ t, tok = .fin t → t.mem [.td, .th] = false) → Good q tok (onInBody re tok s) := fun he =>
    onInBody_ok hre h hf (fun _ _ _ _ _ => by decide) fun t e _ => he t e
  unfold onInCell
  cases tok with
  | start t a f =>
    refine Sat.ite (fun _ => ?_) fun _ => body fun t e => by cases e
    refine any_bind sc_table h.root fun b => Sat.ite (fun _ => ?_) fun _ => h.inv
    exact Sat.bind (closeCell_ok h) fun s1 h1 => hre _ _ hf h1.inv
  | fin t =>
    refine Sat.ite (fun ht => ?_) fun n1 => Sat.ite (fun _ => h.inv) fun _ => Sat.ite (fun _ => ?_) fun _ => body fun t' e => ?_
    · obtain ⟨pre, e, r, hs, h1, h2⟩ := cell_parts h
      rw [hs, cell_scope ht h1 h2, bind_ok]
      refine Sat.ite (fun hb => ?_) fun _ => h.inv
      refine cur_bind (h.implied _).root fun _ _ _ => Body.inv (z := .row) ?_
      exact popCell h (fun x hx => plain_isTag hx ht (by decide)) hs h1 h2 hb
    · refine any_bind sc_table h.root fun b => Sat.ite (fun _ => ?_) fun _ => h.inv
      exact Sat.bind (closeCell_ok h) fun s1 h1 => hre _ _ hf h1.inv
    · cases e; simpa using n1
  | char c => exact body fun t e => by cases e
  | comment c => exact body fun t e => by cases e
  | doctype c => exact body fun t e => by cases e
  | eof => exact body fun t e => by cases e

end Verif.Proof.HtmlTree.Safe
