import Verif.Proof.HtmlTreeSafe4
/- "In body", for C105. -/
namespace Verif.Proof.HtmlTree.Safe
open Verif.Model.HtmlTree
open Verif.Proof.HtmlTree.Forest (Kept Wf Deep Elem tagAt els Has)

variable {q : Prop} {s : S} {z : Zone} {re : Re}

/-- A step that is made or not. -/
theorem Sat.jp {α β : Type} {P : β → Prop} {Q : α → Prop} {c : Prop} [Decidable c] {a b : R α} {f : α → R β} (h : Sat q Q (if c then a else b))
    (hf : ∀ x, Q x → Sat q P (f x)) : Sat q P (if c then a >>= f else b >>= f) := by
  by_cases hc : c
  · rw [if_pos hc] at h ⊢; exact h.bind hf
  · rw [if_neg hc] at h ⊢; exact h.bind hf

/-- Processing again is fine. -/
def Again (q : Prop) (re : Re) : Prop := ∀ tok s, Fine q tok → Inv q s → Good q tok (re tok s)

theorem inv_of {r : R S} (h : Sat q (Body q z) r) : Sat q (Inv q) r := h.mono fun _ h => h.inv

theorem behind_mem : ∀ {l : List Fmt} {x : Entry}, x ∈ behindMarker l → Fmt.el x ∈ l
  | [], _, h => by simp [behindMarker] at h
  | .marker :: l, _, h => by simp [behindMarker] at h
  | .el e :: l, x, h => by
    unfold behindMarker at h
    rcases List.mem_cons.mp h with rfl | h
    · simp
    · exact List.mem_cons_of_mem _ (behind_mem h)

theorem fmt_not (t : Tag) (h : t.mem (.a :: .nobr :: fmtTags) = true) : t.mem structural = false := mem_not h (by decide)

theorem aStart_ok (h : Body q z s) {t : Tag} (ht : t.is .a = true) (hq : q) (attrs : List At) (x : Entry) (hx : Fmt.el x ∈ s.fmt) :
    Sat q (Body q z) (do
      let (other, s) ← adoption s t
      if other then .ok s
      else do
        let s := { s with fmt := dropFmt x.node s.fmt }
        let s ← if hasNode s x.node then removeNode s x.node else .ok s
        let s ← reconstruct s
        insertFmtEl s t attrs) := by
  have hs : t.mem structural = false := is_not ht (by decide)
  refine Sat.bind (adoption_ok h.1 h.2.1 hs) ?_
  rintro ⟨other, s1⟩ h1
  have hb : Body q z s1 := Adopted.body h h1
  dsimp only
  refine Sat.ite (fun _ => hb) fun _ => ?_
  have hb' : Body q z { s1 with fmt := dropFmt x.node s1.fmt } := hb.with_fmt (drop_sub _ _)
  refine Sat.jp (Q := Body q z) ?_ fun s2 h2 => Sat.bind h2.reconstruct fun s3 h3 => h3.fmtEl hq hs attrs
  refine Sat.ite (fun hn => hb'.removeNode ?_ hn) fun _ => hb'
  intro y hy hyx
  refine ⟨(hb.1.names y hy).1, ?_⟩
  obtain ⟨d, st, f, rfl, a1, a2, a3, a4⟩ := h1
  rcases a3 y hy with h | h
  · exact ((‹Body q z s›).1.fmts x hx).2.2 y h hyx
  · have := ((‹Body q z s›).1.fmts x hx).1
    omega

theorem bodyStart2_ok (hre : Again q re) (h : Body q z s) {t : Tag} {attrs : List At} {self : Bool} (hf : Fine q (.start t attrs self))
    (ht : t.mem [.html, .body, .frameset, .template] = false) (hz : t = .k .table → z ∈ flows) : Sat q (Inv q) (bodyStart2 re t attrs self s) := by
  unfold bodyStart2
  refine Sat.ite (fun hk => ?_) fun n1 => ?_
  · have hq : q := hf.2 (by rw [is_iff.mp hk]; rfl)
    have hs : t.mem structural = false := is_not hk (by decide)
    split
    · rename_i x hx
      exact inv_of (aStart_ok h hk hq attrs x (behind_mem (List.mem_of_find?_eq_some hx)))
    · exact inv_of (Sat.bind h.reconstruct fun s1 h1 => h1.fmtEl hq hs attrs)
  refine Sat.ite (fun hk => ?_) fun n2 => ?_
  · have hm : t.mem (.a :: .nobr :: fmtTags) = true := by
      cases t with
      | other => cases hk
      | k x =>
        simp only [Tag.mem, List.contains_eq_mem, decide_eq_true_eq] at hk ⊢
        exact List.mem_cons_of_mem _ (List.mem_cons_of_mem _ hk)
    exact inv_of (Sat.bind h.reconstruct fun s1 h1 => h1.fmtEl (hf.2 hm) (fmt_not t hm) attrs)
  refine Sat.ite (fun hk => ?_) fun n3 => ?_
  · have hq : q := hf.2 (by rw [is_iff.mp hk]; rfl)
    have hs : t.mem structural = false := is_not hk (by decide)
    refine Sat.bind h.reconstruct fun s1 h1 => ?_
    refine scope_bind sc_default h1.2.1 (is_plain (by decide)) ?_ fun hit => ?_
    · exact inv_of (h1.fmtEl hq hs attrs)
    · refine Sat.bind (adoption_ok h1.1 h1.2.1 hs) ?_
      rintro ⟨other, s2⟩ h2
      have hb : Body q z s2 := Adopted.body h1 h2
      dsimp only
      exact Sat.ite (fun _ => hb.inv) fun _ => inv_of (Sat.bind hb.reconstruct fun s3 h3 => h3.fmtEl hq hs attrs)
  refine Sat.ite (fun hk => ?_) fun n4 => ?_
  · exact Sat.bind h.reconstruct fun s1 h1 => Sat.bind (h1.insert (mem_not hk (by decide)) attrs) fun s2 h2 => (h2.marker).inv
  refine Sat.ite (fun hk => ?_) fun n5 => ?_
  · have hp : Sat q (Body q z) (if s.doc ≠ .quirks then closePIn s else .ok s) := Sat.ite (fun _ => h.closePIn) fun _ => h
    refine Sat.jp hp fun s1 h1 => ?_
    have htt := is_iff.mp hk
    subst htt
    obtain ⟨d, e1, e2, e3, e4⟩ := insertHtml_ok (t := .k .table) h1.1 h1.dp ⟨by simp, by simp, fun l hl => (by cases hl), fun _ => h1.tame⟩ attrs
    dsimp only
    rw [e1]
    exact ⟨e4, (Sh.table ⟨rfl, .table, by simp, rfl⟩ (hz rfl) h1.2.1).sh⟩
  refine Sat.ite (fun hk => ?_) fun n6 => ?_
  · exact Sat.bind h.reconstruct fun s1 h1 => Sat.bind (h1.insertPop (Ins.plain (mem_not hk (by decide))) attrs) fun s2 h2 => Body.inv (s := { s2 with framesetOk := false }) h2
  refine Sat.ite (fun hk => ?_) fun n7 => ?_
  · refine Sat.bind h.reconstruct fun s1 h1 => Sat.bind (h1.insertPop (Ins.plain (is_not hk (by decide))) attrs) fun s2 h2 => ?_
    by_cases hh : hiddenInput attrs = true
    · rw [if_pos hh]; exact h2.inv
    · rw [if_neg hh]; exact Body.inv (s := { s2 with framesetOk := false }) h2
  refine Sat.ite (fun hk => ?_) fun n8 => ?_
  · exact inv_of (h.insertPop (Ins.plain (mem_not hk (by decide))) attrs)
  refine Sat.ite (fun hk => ?_) fun n9 => ?_
  · exact Sat.bind h.closePIn fun s1 h1 => Sat.bind (h1.insertPop (Ins.plain (is_not hk (by decide))) attrs) fun s2 h2 => Body.inv (s := { s2 with framesetOk := false }) h2
  refine Sat.ite (fun hk => ?_) fun n10 => ?_
  · refine Good.to (hre (.start (.k .img) attrs self) s ⟨rfl, fun hc => ?_⟩ h.inv) (by simp)
    exact absurd hc (by decide)
  refine Sat.ite (fun hk => ?_) fun n11 => ?_
  · have hs : t.mem structural = false := is_not hk (by decide)
    obtain ⟨d, e1, e2, e3, e4⟩ := insertHtml_ok h.1 h.dp (Ins.plain hs) attrs
    rw [e1]
    exact ⟨e4, _, _, rfl, ⟨rfl, hs⟩, h.root, (h.fits.kept h.1.tops.wf e2.2.2)⟩
  refine Sat.ite (fun hk => ?_) fun n12 => ?_
  · have hs : t.mem structural = false := is_not hk (by decide)
    exact Sat.bind h.closePIn fun s1 h1 => Sat.bind h1.reconstruct fun s2 h2 => Body.raw (s := { s2 with framesetOk := false }) h2 hs _ _
  refine Sat.ite (fun hk => ?_) fun n13 => ?_
  · exact Body.raw (s := { s with framesetOk := false }) h (is_not hk (by decide)) _ _
  refine Sat.ite (fun hk => ?_) fun n14 => ?_
  · exact h.raw (is_not hk (by decide)) _ _
  refine Sat.ite (fun hk => ?_) fun n15 => ?_
  · refine Sat.bind h.reconstruct fun s1 h1 => ?_
    have htt := is_iff.mp hk
    subst htt
    obtain ⟨d, e1, e2, e3, e4⟩ := insertHtml_ok (t := .k .select) h1.1 h1.dp (Ins.k (by decide)) attrs
    rw [e1, bind_ok]
    refine ⟨e4, ?_⟩
    have hsel : Sel (⟨s1.dom.length, .html, .k .select, attrs⟩ :: s1.stack) := ⟨[], _, z, _, rfl, by simp, ⟨rfl, .select, by simp, rfl⟩, h1.2.1⟩
    dsimp only
    split <;> exact hsel
  refine Sat.ite (fun hk => ?_) fun n16 => ?_
  · have hs : t.mem structural = false := mem_not hk (by decide)
    refine cur_bind h.root fun e l hl => ?_
    have hp : Sat q (Body q z) (if e.is .option then pop s else .ok s) :=
      Sat.ite (fun he => h.pop hl (plain_of (is_tag he).1 (is_tag he).2 (by decide))) fun _ => h
    exact Sat.jp hp fun s1 h1 => Sat.bind h1.reconstruct fun s2 h2 => inv_of (h2.insert hs attrs)
  refine Sat.ite (fun hk => ?_) fun n17 => ?_
  · have hs : t.mem structural = false := mem_not hk (by decide)
    refine scope_bind sc_default h.2.1 (is_plain (by decide)) ?_ fun hit => ?_
    · exact inv_of (h.insert hs attrs)
    · exact cur_bind (h.implied _).root fun _ _ _ => inv_of ((h.implied _).insert hs attrs)
  refine Sat.ite (fun hk => ?_) fun n18 => ?_
  · have hs : t.mem structural = false := mem_not hk (by decide)
    refine scope_bind sc_default h.2.1 (is_plain (by decide)) ?_ fun hit => ?_
    · exact inv_of (h.insert hs attrs)
    · exact cur_bind (h.implied _).root fun _ _ _ => inv_of ((h.implied _).insert hs attrs)
  refine Sat.ite (fun hk => ?_) fun n19 => ?_
  · exfalso
    have h1 := hf.1
    have : t.mem [.button, .svg, .math, .template] = true := by
      cases t with
      | other => cases hk
      | k x =>
        simp only [Tag.mem, List.contains_eq_mem, decide_eq_true_eq, List.mem_cons, List.not_mem_nil, or_false] at hk ⊢
        rcases hk with rfl | rfl <;> simp
    rw [this] at h1
    cases h1
  refine Sat.ite (fun hk => h.inv) fun n20 => ?_
  have hs : t.mem structural = false := by
    refine none_of fun k hk => ?_
    simp only [structural, List.mem_cons, List.not_mem_nil, or_false] at hk
    rcases hk with rfl | rfl | rfl | rfl | rfl | rfl | rfl | rfl | rfl | rfl | rfl | rfl | rfl | rfl | rfl <;>
      first | exact ne_of ht (by decide) | exact ne_is n5 | exact ne_is n15 | exact ne_mem n20 (by decide)
  exact Sat.bind h.reconstruct fun s1 h1 => inv_of (h1.insert hs attrs)

/-! The other start tags. -/

theorem Base.two {l : List Entry} (h : Base z l) : ∃ p b r, l = p ++ [b, r] ∧ Nm b [.body] := by
  induction h with
  | body h1 h2 => exact ⟨[], _, _, rfl, h1⟩
  | @table e _ pre _ h1 h2 h3 h4 ih =>
    obtain ⟨p, b, r, rfl, hb⟩ := ih
    exact ⟨e :: (pre ++ p), b, r, by simp, hb⟩
  | _ =>
    rename_i ih
    obtain ⟨p, b, r, rfl, hb⟩ := ih
    exact ⟨_ :: p, b, r, rfl, hb⟩

theorem second_ok (h : Sh z s.stack) : ∃ b, second s = .ok (some b) ∧ b.is .body = true := by
  obtain ⟨pre, base, hs, h1, h2⟩ := h
  obtain ⟨p, b, r, rfl, hb, k, hk, hkt⟩ := h2.two
  simp only [List.mem_singleton] at hk
  subst hk
  refine ⟨b, ?_, by rw [is_k hb hkt]; rfl⟩
  unfold second
  rw [hs]
  simp

theorem liStart_ok (h : Body q z s) {t : Tag} (ht : t.is .li = true) (attrs : List At) : Sat q (Body q z) (liStart s t attrs) := by
  unfold liStart
  cases hs : s.stack with
  | nil => exact absurd hs h.root.ne
  | cons e l =>
    dsimp only
    refine Sat.ite (fun he => ?_) fun _ => Sat.ite (fun _ => h) fun _ => Sat.bind h.closePIn fun s1 h1 => h1.insert (is_not ht (by decide)) attrs
    have hp : Plain e := plain_of (is_tag he).1 (is_tag he).2 (by decide)
    refine h.closeTo ⟨[], e, l, hs, by simp, he, hp, (hs ▸ h.2.1).tail hp⟩ fun x _ hx _ => .inl ?_
    rw [(is_tag hx).2]; rfl

theorem bodyStart_ok (hre : Again q re) (h : Body q z s) {t : Tag} {attrs : List At} {self : Bool} (hf : Fine q (.start t attrs self))
    (hz : t = .k .table → z ∈ flows) : Sat q (Inv q) (bodyStart re t attrs self s) := by
  have hnt : t ≠ .k .template := ne_of hf.1 (by decide)
  unfold bodyStart
  refine Sat.ite (fun hk => inv_of (h.htmlStart attrs)) fun n1 => ?_
  refine Sat.ite (fun hk => headStart_ok h.1 h.dp h.fits hk hnt attrs) fun n2 => ?_
  obtain ⟨b, hb1, hb2⟩ := second_ok h.2.1
  refine Sat.ite (fun hk => ?_) fun n3 => ?_
  · rw [hb1, bind_ok]
    dsimp only
    rw [hb2]
    exact h.inv
  refine Sat.ite (fun hk => ?_) fun n4 => ?_
  · rw [hb1, bind_ok]
    dsimp only
    rw [hb2]
    exact h.inv
  have ht4 : t.mem [.html, .body, .frameset, .template] = false := by
    refine none_of fun k hk => ?_
    simp only [List.mem_cons, List.not_mem_nil, or_false] at hk
    rcases hk with rfl | rfl | rfl | rfl
    · exact ne_is n1
    · exact ne_is n3
    · exact ne_is n4
    · exact hnt
  refine Sat.ite (fun hk => ?_) fun n5 => ?_
  · exact Sat.bind h.closePIn fun s1 h1 => inv_of (h1.insert (mem_not hk (by decide)) attrs)
  refine Sat.ite (fun hk => ?_) fun n6 => ?_
  · have hs : t.mem structural = false := mem_not hk (by decide)
    refine Sat.bind h.closePIn fun s1 h1 => cur_bind h1.root fun e l hl => ?_
    have hp : Sat q (Body q z) (if e.isIn headings then pop s1 else .ok s1) :=
      Sat.ite (fun he => h1.pop hl (isIn_plain (s := s1) (by decide) e (by rw [hl]; simp) he)) fun _ => h1
    exact Sat.jp hp fun s2 h2 => inv_of (h2.insert hs attrs)
  refine Sat.ite (fun hk => ?_) fun n7 => ?_
  · exact Sat.bind h.closePIn fun s1 h1 => Sat.bind (h1.insert (mem_not hk (by decide)) attrs) fun s2 h2 =>
      Body.inv (s := { s2 with omitLf := true, framesetOk := false }) h2
  refine Sat.ite (fun hk => ?_) fun n8 => ?_
  · refine Sat.ite (fun _ => h.inv) fun _ => ?_
    refine Sat.bind h.closePIn fun s1 h1 => ?_
    have htt := is_iff.mp hk
    subst htt
    obtain ⟨d, e1, e2, e3, e4⟩ := insertHtml_ok (t := .k .form) h1.1 h1.dp (Ins.k (by decide)) attrs
    rw [e1, bind_ok]
    let e : Entry := ⟨s1.dom.length, .html, .k .form, attrs⟩
    have hsh : Sh z (e :: s1.stack) := h1.2.1.push ⟨rfl, rfl⟩
    have hc : cur { s1 with dom := d, stack := e :: s1.stack } = .ok e := rfl
    rw [hc, bind_ok, has_no (q := q) (s := { s1 with dom := d, stack := e :: s1.stack }) e4]
    simp only [Bool.false_eq_true, if_false]
    refine Body.inv (z := z) ⟨CoreOf.form' e4 ?_ ?_, hsh, h1.2.2⟩
    · intro x hx
      cases hx
      refine ⟨e3, fun y hy hye => ?_⟩
      rw [node_inj e4.nodup hy (y := e) (List.mem_cons_self) hye]
    · intro x hx hh
      cases hx
      have := (h1.1.heads _ hh).1
      exact absurd this (Nat.lt_irrefl _)
  refine Sat.ite (fun hk => ?_) fun n9 => ?_
  · have h' : Body q z { s with framesetOk := false } := h
    refine Sat.bind (liStart_ok h' hk attrs) fun s1 h1 => Sat.ite (fun _ => h1.inv) fun _ => ?_
    exact bodyStart2_ok hre h1 hf ht4 hz
  refine Sat.ite (fun hk => ?_) fun n10 => ?_
  · have h' : Body q z { s with framesetOk := false } := h
    exact Sat.bind (h'.ddLoop s.stack [] rfl (by simp) h.2.1) fun s1 h1 => Sat.bind h1.closePIn fun s2 h2 => inv_of (h2.insert (mem_not hk (by decide)) attrs)
  refine Sat.ite (fun hk => ?_) fun n11 => ?_
  · exact Sat.bind h.closePIn fun s1 h1 => Sat.bind (h1.insert (is_not hk (by decide)) attrs) fun s2 h2 =>
      Body.inv (s := { s2 with switch := some .plaintext }) h2
  refine Sat.ite (fun hk => ?_) fun n12 => bodyStart2_ok hre h hf ht4 hz
  exact absurd (is_iff.mp hk) (ne_of hf.1 (by decide))

/-! End tags. -/

theorem scope_body (h : Sh z s.stack) : ∃ b, inScope defaultScope (·.is .body) s.stack = .ok b ∧ (b = true → z = .body) := by
  obtain ⟨pre, base, hs, h1, h2⟩ := h
  rw [hs]
  clear hs
  induction pre with
  | cons e pre ih =>
    simp only [List.cons_append]
    unfold inScope
    rw [plain_is (h1 e (by simp)) (by decide)]
    obtain ⟨b, hb, hz⟩ := ih fun x hx => h1 x (by simp [hx])
    by_cases hd : defaultScope e = true
    · exact ⟨false, by simp [hd], by simp⟩
    · exact ⟨b, by simpa [hd] using hb, hz⟩
  | nil =>
    simp only [List.nil_append]
    have stop : ∀ {e : Entry} {ks : List K} {r : List Entry}, Nm e ks → (∀ k ∈ ks, k ≠ .body ∧ [K.applet, .caption, .html, .table, .td, .th, .marquee, .object, .template].contains k = true) →
        inScope defaultScope (·.is .body) (e :: r) = .ok false := by
      rintro e ks r ⟨h3, k, hk, h4⟩ hh
      unfold inScope
      rw [is_k h3 h4, default_k h3 h4, (hh k hk).2]
      simp [(hh k hk).1]
    have skip : ∀ {e : Entry} {ks : List K} {r : List Entry}, Nm e ks → (∀ k ∈ ks, k ≠ .body) → inScope defaultScope (·.is .body) r = .ok false →
        inScope defaultScope (·.is .body) (e :: r) = .ok false := by
      rintro e ks r ⟨h3, k, hk, h4⟩ hh hr
      unfold inScope
      rw [is_k h3 h4]
      simp [hh k hk, hr]
    have tab : ∀ {r : List Entry}, Base .table r → inScope defaultScope (·.is .body) r = .ok false := by
      rintro r hr
      cases hr with
      | table h3 => exact stop h3 (by decide)
    have se : ∀ {r : List Entry}, Base .sec r → inScope defaultScope (·.is .body) r = .ok false := by
      rintro r hr
      cases hr with
      | sec h3 h4 => exact skip h3 (by decide) (tab h4)
    cases h2 with
    | body h3 h4 =>
      obtain ⟨h5, k, hk, h6⟩ := h3
      simp only [List.mem_singleton] at hk
      subst hk
      refine ⟨true, ?_, fun _ => rfl⟩
      unfold inScope
      rw [is_k h5 h6]
      rfl
    | table h3 h4 h5 h6 => exact ⟨false, tab (.table h3 h4 h5 h6), by simp⟩
    | sec h3 h4 => exact ⟨false, se (.sec h3 h4), by simp⟩
    | row h3 h4 => exact ⟨false, skip h3 (by decide) (se h4), by simp⟩
    | cell h3 h4 => exact ⟨false, stop h3 (by decide), by simp⟩
    | caption h3 h4 => exact ⟨false, stop h3 (by decide), by simp⟩
    | group h3 h4 => exact ⟨false, skip h3 (by decide) (tab h4), by simp⟩

theorem not_implied {x : Entry} {t : Tag} {l : List K} (hx : x.isTag t = true) (ht : t.mem l = true) (hl : ∀ k ∈ l, k ∉ impliedK) : x.isIn impliedK = false := by
  unfold Entry.isIn
  rw [(isTag_eq hx).2, mem_not ht hl, Bool.and_false]

theorem bodyEnd_ok (hre : Again q re) (h : Body q z s) {t : Tag} (hz : z ≠ .body → t.mem z.heads = false) : Sat q (Inv q) (bodyEnd re t s) := by
  unfold bodyEnd
  refine Sat.ite (fun hk => ?_) fun n1 => ?_
  · rw [templateEnd_eq h.1]; exact h.inv
  refine Sat.ite (fun hk => ?_) fun n2 => ?_
  · obtain ⟨b, hb, hzb⟩ := scope_body h.2.1
    rw [hb, bind_ok]
    refine Sat.ite (fun hc => ?_) fun _ => h.inv
    have := hzb hc
    subst this
    exact Body.inv (z := .body) (s := s.to .afterBody) ⟨h.1, h.2.1, .inr ⟨rfl, .inl rfl⟩⟩
  refine Sat.ite (fun hk => ?_) fun n3 => ?_
  · obtain ⟨b, hb, hzb⟩ := scope_body h.2.1
    rw [hb, bind_ok]
    refine Sat.ite (fun hc => ?_) fun _ => h.inv
    have := hzb hc
    subst this
    exact (hre (.fin t) _ trivial (Body.inv (z := .body) (s := s.to .afterBody) ⟨h.1, h.2.1, .inr ⟨rfl, .inl rfl⟩⟩)).to (by simp)
  have hhd : t.mem z.heads = false := by
    by_cases hc : z = .body
    · subst hc
      exact none_of fun k hk => by
        simp only [Zone.heads, List.mem_singleton] at hk
        subst hk
        exact ne_is n2
    · exact hz hc
  refine Sat.ite (fun hk => ?_) fun n4 => ?_
  · refine scope_bind sc_default h.2.1 (isTag_plain (mem_not hk (by decide))) h.inv fun hit => ?_
    exact cur_bind (h.implied _).root fun _ _ _ => (h.closeTo hit fun x _ hx _ => .inr (not_implied hx hk (by decide))).inv
  refine Sat.ite (fun hk => ?_) fun n5 => ?_
  · rw [has_no h.1]
    refine Sat.ite (fun hc => by cases hc) fun _ => ?_
    split
    · exact h.inv
    · rename_i n hn
      have hp : ∀ x ∈ s.stack, (x.node == n) = true → Plain x := fun x hx hxn =>
        plain_of (h.1.names x hx).1 ((h.1.forms n hn).2 x hx (by simpa using hxn)) (by decide)
      have h' : Body q z { s with form := none } := ⟨CoreOf.form' h.1 (fun x hx => by cases hx) (fun x hx => by cases hx), h.2⟩
      dsimp only
      refine scope_bind (st := s.stack) sc_default h.2.1 hp h'.inv fun hit => ?_
      refine cur_bind (h'.implied _).root fun _ _ _ => inv_of ((h'.implied _).removeNode ?_ ?_)
      · intro x hx hxn
        exact hp x ((implied_suffix _ _).subset hx) (by simpa using hxn)
      · have hit2 : Hit (·.node == n) z (Verif.Model.HtmlTree.implied (fun _ => false) s.stack) := by
          refine implied_hit hit fun x hx hxn _ => .inr ?_
          rw [isIn_k (h.1.names x hx).1 ((h.1.forms n hn).2 x hx (by simpa using hxn))]
          decide
        obtain ⟨a, x, b, e1, e2, e3, e4⟩ := hit2
        show List.any (Verif.Model.HtmlTree.implied (fun _ => false) s.stack) _ = true
        rw [e1, List.any_eq_true]
        exact ⟨x, by simp, e3⟩
  refine Sat.ite (fun hk => ?_) fun n6 => ?_
  · refine scope_bind sc_button h.2.1 (is_plain (by decide)) ?_ fun hit => ?_
    · have hi := h.insert (t := .k .p) rfl []
      obtain ⟨d, e1, e2, e3, e4⟩ := insertHtml_ok (t := .k .p) h.1 h.dp (Ins.k (by decide)) []
      simp only [Bool.false_eq_true, if_false]
      rw [e1] at hi ⊢
      rw [bind_ok]
      exact inv_of (Body.closeP hi ⟨[], _, _, rfl, by simp, rfl, ⟨rfl, rfl⟩, h.2.1⟩)
    · exact inv_of (h.closeP hit)
  refine Sat.ite (fun hk => ?_) fun n7 => ?_
  · refine scope_bind sc_list h.2.1 (is_plain (by decide)) h.inv fun hit => ?_
    exact cur_bind (h.implied _).root fun _ _ _ => (h.closeTo hit fun x _ hx _ => .inl (by rw [(is_tag hx).2]; rfl)).inv
  refine Sat.ite (fun hk => ?_) fun n8 => ?_
  · refine scope_bind sc_default h.2.1 (isTag_plain (mem_not hk (by decide))) h.inv fun hit => ?_
    refine cur_bind (h.implied _).root fun _ _ _ => ?_
    have h1 := h.closeTo (keep := (·.isTag t)) hit fun x _ hx _ => .inl hx
    exact inv_of (h1.otherEnd hhd _ [] rfl (by simp) h1.2.1)
  refine Sat.ite (fun hk => ?_) fun n9 => ?_
  · refine scope_bind sc_default h.2.1 (isIn_plain (by decide)) h.inv fun hit => ?_
    refine cur_bind (h.implied _).root fun _ _ _ => (h.closeTo hit fun x _ hx _ => .inr ?_).inv
    unfold Entry.isIn at hx ⊢
    rw [Bool.and_eq_true] at hx
    rw [mem_not hx.2 (by decide), Bool.and_false]
  refine Sat.ite (fun hk => ?_) fun n10 => ?_
  · refine Sat.bind (adoption_ok h.1 h.2.1 (fmt_not t hk)) ?_
    rintro ⟨other, s1⟩ h1
    have hb : Body q z s1 := Adopted.body h h1
    dsimp only
    exact Sat.ite (fun _ => inv_of (hb.otherEnd hhd _ [] rfl (by simp) hb.2.1)) fun _ => hb.inv
  refine Sat.ite (fun hk => ?_) fun n11 => ?_
  · refine scope_bind sc_default h.2.1 (isTag_plain (mem_not hk (by decide))) h.inv fun hit => ?_
    exact cur_bind (h.implied _).root fun _ _ _ => (h.closeTo hit fun x _ hx _ => .inr (not_implied hx hk (by decide))).clear.inv
  refine Sat.ite (fun hk => ?_) fun n12 => inv_of (h.otherEnd hhd _ [] rfl (by simp) h.2.1)
  refine (hre (.start (.k .br) [] false) s ⟨rfl, fun hc => ?_⟩ h.inv).to (by simp)
  exact absurd hc (by decide)

/-! All tokens. -/

/-- A character in "in body" keeps everything but the tree, the stack and the list. -/
theorem bodyChar_ok (h : Core q s) (hs : Sh z s.stack) (c : Nat) : Sat q (fun s' => Core q s' ∧ Sh z s'.stack ∧ s'.mode = s.mode ∧ s'.orig = s.orig ∧ s'.head = s.head)
    (onInBody re (.char c) s) := by
  unfold onInBody
  dsimp only
  refine Sat.ite (fun _ => ⟨h, hs, rfl, rfl, rfl⟩) fun _ => ?_
  obtain ⟨s', h1, d, new, f, h2, h3, h4, -⟩ := reconstruct_ok h hs.dp
  rw [h1, bind_ok]
  have hs' : Sh z s'.stack := by rw [h2]; exact hs.pushes h3
  obtain ⟨d', h5, h6, -⟩ := insertChar_ok h4 hs'.rooted c
  rw [h5, bind_ok]
  subst h2
  split
  · exact ⟨h6, hs', rfl, rfl, rfl⟩
  · exact ⟨h6, hs', rfl, rfl, rfl⟩

theorem body_eof (h : Core q s) : onInBody re .eof s = .ok (stopParsing s) := by
  unfold onInBody
  simp [h.tmpls]

theorem onInBody_ok (hre : Again q re) (h : Body q z s) {tok : Tok} (hf : Fine q tok) (hz : ∀ t a f, tok = .start t a f → t = .k .table → z ∈ flows)
    (he : ∀ t, tok = .fin t → z ≠ .body → t.mem z.heads = false) : Good q tok (onInBody re tok s) := by
  cases tok with
  | char c =>
    refine Good.of ((bodyChar_ok h.1 h.2.1 c).mono fun s' h' => Body.inv (z := z) ⟨h'.1, h'.2.1, ?_⟩)
    rw [h'.2.2.1]; exact h.2.2
  | comment t => exact Good.of (inv_of (h.comment t))
  | doctype d => exact Good.of (r := .ok s) h.inv
  | start t a f => exact Good.of (bodyStart_ok hre h hf (hz t a f rfl))
  | fin t => exact Good.of (bodyEnd_ok hre h (he t rfl))
  | eof =>
    rw [body_eof h.1]
    exact h.done

end Verif.Proof.HtmlTree.Safe
