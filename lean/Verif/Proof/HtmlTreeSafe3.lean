import Verif.Proof.HtmlTreeSafe2
/- The adoption agency algorithm, for C105: it keeps the shape of the stack. -/
namespace Verif.Proof.HtmlTree.Safe
open Verif.Model.HtmlTree
open Verif.Proof.HtmlTree.Forest (Kept Wf Deep Elem tagAt els Has Mono Below)

variable {q : Prop} {dom : Dom} {stack : List Entry} {fmt : List Fmt} {form head : Option Nat} {tmpl : List Mode} {s : S} {z : Zone}

theorem CoreOf.perm {st : List Entry} (h : CoreOf q dom stack fmt form head tmpl) (hp : List.Perm st stack) : CoreOf q dom st fmt form head tmpl where
  names e he := h.names e (hp.mem_iff.mp he)
  tables e he := h.tables e (hp.mem_iff.mp he)
  nodup := ((hp.map Entry.node).nodup_iff).mpr h.nodup
  small e he := h.small e (hp.mem_iff.mp he)
  fmts e he := ⟨(h.fmts e he).1, (h.fmts e he).2.1, fun x hx => (h.fmts e he).2.2 x (hp.mem_iff.mp hx)⟩
  forms n hn := ⟨(h.forms n hn).1, fun x hx => (h.forms n hn).2 x (hp.mem_iff.mp hx)⟩
  heads n hn := ⟨(h.heads n hn).1, fun x hx => (h.heads n hn).2 x (hp.mem_iff.mp hx)⟩
  tmpls := h.tmpls
  apart := h.apart
  quiet := h.quiet
  tops := h.tops.sub fun _ he => hp.mem_iff.mp he

theorem unlink_length (d : Dom) (x : Nat) : (unlink d x).length = d.length := by
  unfold unlink; split <;> simp

theorem unlink_parent {d : Dom} {x y : Nat} (h : y ≠ x) : parentOf (unlink d x) y = parentOf d y := by
  unfold unlink
  split
  · rfl
  · rw [parent_set, if_neg fun hc => h hc.1, parent_modify_kids (f := fun k => k.erase x)]

theorem moveNode_ok' (hq : q) {d : Dom} {pl : Place} {p x : Nat} (hp : pl.parent d = some p) :
    Sat q (fun d' => (d.length ≤ d'.length ∧ ∀ y, parentOf d y ≠ none → parentOf d' y ≠ none) ∧ d'.length = d.length) (moveNode d pl x) := by
  unfold moveNode
  rw [hp]
  dsimp only
  refine Sat.ite (fun _ => .inr ⟨hq, .inr rfl⟩) fun _ => Sat.ite (fun _ => .inr ⟨hq, .inr rfl⟩) fun hx => ?_
  have hp' : pl.parent (unlink d x) = some p := by
    cases pl with
    | last q => exact hp
    | before y =>
      show parentOf _ y = _
      rw [unlink_parent fun h => hx (by rw [h])]
      exact hp
  obtain ⟨d', h1, h2, h3⟩ := link_ok (x := x) hp'
  rw [h1]
  rw [unlink_length] at h2 h3
  refine ⟨⟨by omega, fun y hy => ?_⟩, h2⟩
  rw [h3]
  split
  · simp
  · rename_i hc
    by_cases hyx : y = x
    · subst hyx
      exact absurd ⟨rfl, parent_lt hy⟩ hc
    · rw [unlink_parent hyx]; exact hy

theorem Sat.both {α : Type} {P Q : α → Prop} {x : R α} (h : Sat q P x) (h2 : ∀ a, x = .ok a → Q a) : Sat q (fun a => P a ∧ Q a) x := by
  cases x with
  | ok a => exact ⟨h, h2 a rfl⟩
  | error e => exact h

theorem moveNode_ok (hq : q) {d : Dom} {pl : Place} {p x : Nat} (w : Wf d) (hp : pl.parent d = some p) (he : Elem d p) (hd : Deep d p)
    (hx : x < d.length) (h0 : x ≠ 0) (ho : ∀ p, parentOf d x = some p → Deep d p) :
    Sat q (fun d' => Up d d' ∧ d'.length = d.length ∧ Mono d d' ∧ ∀ y, parentOf d' y = if y = x then some p else parentOf d y) (moveNode d pl x) := by
  refine Sat.mono (Sat.both (moveNode_ok' hq hp) fun d' e => Kept.move w hx h0 (fun p' hp' => by rw [hp] at hp'; cases hp'; exact ⟨he, hd⟩) ho e) ?_
  rintro d' ⟨⟨h1, h2⟩, h3, h4, p', hp', h5⟩
  rw [hp] at hp'
  cases hp'
  exact ⟨⟨h1.1, h1.2, h3⟩, h2, h4, h5⟩

theorem Deep.kept {d d' : Dom} {p : Nat} (h : Deep d p) (w : Wf d) (u : Kept d d') : Deep d' p := ⟨h.1, by rw [u.root w]; exact h.2⟩

theorem moveKids_ok (hq : q) {n fb : Nat} : ∀ (l : List Nat) (d : Dom), Wf d → Elem d n → Deep d n → Elem d fb → Deep d fb → (∀ x ∈ l, parentOf d x = some fb) →
    l.Nodup → n ∉ l → parentOf d n = none → ¬ Below d n fb →
    Sat q (fun d' => Up d d' ∧ d'.length = d.length ∧ Mono d d' ∧ parentOf d' n = none ∧ ¬ Below d' n fb) (moveKids n l d)
  | [], d, _, _, _, _, _, _, _, _, h1, h2 => ⟨Up.refl d, rfl, Mono.refl, h1, h2⟩
  | x :: l, d, w, hn, hn', hf, hf', hl, nd, hnl, h1, h2 => by
    have hx : parentOf d x = some fb := hl x (by simp)
    refine Sat.bind (moveNode_ok hq (p := n) (pl := .last n) w rfl hn hn' (Forest.lt_of_parent hx) (by rintro rfl; rw [w.top] at hx; cases hx)
      fun p hp => by rw [hx] at hp; cases hp; exact hf') ?_
    rintro d1 ⟨a1, a2, a3, a4⟩
    have w1 := a1.2.2.wf w
    simp only [List.mem_cons, not_or] at hnl
    rw [List.nodup_cons] at nd
    refine (moveKids_ok hq l d1 w1 (hn.mono a3) (Deep.kept hn' w a1.2.2) (hf.mono a3) (Deep.kept hf' w a1.2.2) ?_ nd.2 hnl.2 ?_ ?_).mono ?_
    · intro y hy
      rw [a4, if_neg (by rintro rfl; exact nd.1 hy)]
      exact hl y (by simp [hy])
    · rw [a4, if_neg hnl.1]; exact h1
    · intro hb
      rcases Forest.below_moved a4 hb with hb | hb
      · exact h2 hb
      · obtain ⟨rk, hr⟩ := w.rank
        have := hr x fb hx
        have := hb.le hr
        omega
    · rintro d2 ⟨b1, b2, b3, b4⟩
      exact ⟨a1.trans b1, by omega, a3.trans b3, b4⟩

/-- A plain element. -/
def PlainAt (d : Dom) (x : Nat) : Prop := ∃ v, tagAt d x = some v ∧ v.2.mem structural = false

theorem PlainAt.kept {d d' : Dom} {x : Nat} (h : PlainAt d x) (u : Kept d d') : PlainAt d' x := by
  obtain ⟨v, h1, h2⟩ := h
  exact ⟨v, u.tags _ _ h1, h2⟩

theorem PlainAt.elem {d : Dom} {x : Nat} (h : PlainAt d x) : Elem d x := by
  obtain ⟨v, h1, -⟩ := h
  exact Forest.tag_elem h1

theorem PlainAt.deep {x : Nat} (h : PlainAt dom x) (ht : Tops dom stack head) : Deep dom x := by
  obtain ⟨v, h1, h2⟩ := h
  exact ht.deep h1 (not_template h2).2

theorem PlainAt.inner {x : Nat} (h : PlainAt dom x) (ht : Tops dom stack head) (hm : Tame dom) : ∀ p, parentOf dom x = some p → Deep dom p := by
  obtain ⟨v, h1, h2⟩ := h
  refine ht.inner hm h1 ?_
  cases hv : v.2 with
  | other => rfl
  | k y =>
    rw [hv] at h2
    simp only [Tag.mem, List.contains_eq_mem, decide_eq_false_iff_not] at h2 ⊢
    have : ∀ y ∈ K.html :: topK, y ∈ structural := by decide
    exact fun hc => h2 (this y hc)

theorem plain_at {e : Entry} (ht : Tops dom stack head) (he : e ∈ stack) (hp : Plain e) : PlainAt dom e.node := ⟨_, ht.tags e he, hp.2⟩

/-- The stack with the entries of a node replaced. -/
theorem map_same {l : List Entry} {n m : Nat} (h : ∀ x ∈ l, x.node ≠ n) :
    l.map (fun x => if x.node = n then { x with node := m } else x) = l := by
  induction l with
  | nil => rfl
  | cons e l ih => rw [List.map_cons, if_neg (h e (by simp)), ih fun x hx => h x (by simp [hx])]

theorem erase_mid {P Q : List Entry} {e : Entry} (h : ∀ x ∈ P, x.node ≠ e.node) :
    (P ++ e :: Q).eraseP (fun x => x.node == e.node) = P ++ Q := by
  induction P with
  | nil => simp
  | cons p P ih =>
    rw [List.cons_append, List.eraseP_cons_of_neg (by simpa using h p (by simp)), ih fun x hx => h x (by simp [hx])]
    rfl

theorem mid_nodup {P Q : List Entry} {e : Entry} (h : ((P ++ e :: Q).map Entry.node).Nodup) :
    (∀ x ∈ P, x.node ≠ e.node) ∧ ∀ x ∈ Q, x.node ≠ e.node := by
  rw [List.map_append, List.map_cons, List.nodup_append] at h
  obtain ⟨h1, h2, h3⟩ := h
  rw [List.nodup_cons] at h2
  exact ⟨fun x hx he => h3 _ (List.mem_map.mpr ⟨x, hx, rfl⟩) _ (by simp) he,
    fun x hx he => h2.1 (List.mem_map.mpr ⟨x, hx, he⟩)⟩

theorem plain_tag {e : Entry} (h : Plain e) : e.tag ≠ .k .template ∧ e.tag ≠ .k .table ∧ e.tag ≠ .k .head := by
  refine ⟨(not_template h.2).1, ?_, ?_⟩ <;> intro hc <;> have := h.2 <;> rw [hc] at this <;> revert this <;> decide

theorem replace_mem {old new : Nat} {l : List Fmt} {f : Entry} (h : Fmt.el f ∈ replaceFmt old new l) :
    (∃ g, Fmt.el g ∈ l ∧ g.node = old ∧ f = { g with node := new }) ∨ (Fmt.el f ∈ l ∧ f.node ≠ old) := by
  unfold replaceFmt at h
  obtain ⟨g, hg, he⟩ := List.mem_map.mp h
  cases g with
  | marker => cases he
  | el g =>
    by_cases hc : g.node = old
    · simp only [hc, if_true, Fmt.el.injEq] at he
      exact .inl ⟨g, hg, hc, he.symm⟩
    · simp only [hc, if_false, Fmt.el.injEq] at he
      subst he
      exact .inr ⟨hg, hc⟩

/-- An entry gets a new node, in the stack and in the list. -/
theorem CoreOf.renew {P Q : List Entry} {e : Entry} {a : List At} (h : CoreOf q dom (P ++ e :: Q) fmt form head tmpl) (hp : Plain e) :
    CoreOf q (dom ++ [⟨.elem .html e.tag a, none, []⟩]) (P ++ { e with node := dom.length } :: Q) (replaceFmt e.node dom.length fmt) form head tmpl := by
  obtain ⟨hP, hQ⟩ := mid_nodup h.nodup
  have up : Up dom (dom ++ [⟨.elem .html e.tag a, none, []⟩]) := ⟨by simp, fun y hy => by rw [parent_append hy]; exact hy, Kept.add (by simp) (by simp)⟩
  have base : CoreOf q dom (P ++ Q) fmt form head tmpl := h.sub (List.Sublist.append_left (List.sublist_cons_self _ _) _)
  have h1 : CoreOf q (dom ++ [⟨.elem .html e.tag a, none, []⟩]) ({ e with node := dom.length } :: (P ++ Q)) fmt form head tmpl :=
    base.push up rfl (by simp) hp.1 (Ins.plain hp.2) (fun hc => absurd hc (plain_tag hp).2.1) (by
      unfold tagAt
      rw [Forest.kind_add, if_pos rfl, hp.1])
  have h2 := h1.perm (st := P ++ { e with node := dom.length } :: Q) List.perm_middle
  refine { h2 with fmts := fun f hf => ?_, quiet := fun hq f hf => ?_ }
  swap
  · rcases replace_mem hf with ⟨g, hg, -⟩ | ⟨hg, -⟩
    · exact h.quiet hq g hg
    · exact h.quiet hq f hg
  rcases replace_mem hf with ⟨g, hg, hgn, rfl⟩ | ⟨hg, hgn⟩
  · refine ⟨by simp, (h.fmts g hg).2.1, fun x hx hxn => ?_⟩
    have hxn : x.node = dom.length := hxn
    rw [List.mem_append, List.mem_cons] at hx
    rcases hx with hx | rfl | hx
    · have := h.small x (by simp [hx]); omega
    · exact hp.2
    · have := h.small x (by simp [hx]); omega
  · refine ⟨by have := (h.fmts f hg).1; simp only [List.length_append, List.length_cons, List.length_nil]; omega, (h.fmts f hg).2.1, fun x hx hxn => ?_⟩
    rw [List.mem_append, List.mem_cons] at hx
    rcases hx with hx | rfl | hx
    · exact (h.fmts f hg).2.2 x (by simp [hx]) hxn
    · exact hp.2
    · exact (h.fmts f hg).2.2 x (by simp [hx]) hxn

/-- What the inner loop leaves. -/
def Looped (q : Prop) (P Q : List Entry) (s s' : S) : Prop := ∃ d new f, s' = { s with dom := d, stack := P ++ (new ++ Q), fmt := f } ∧
  (∀ x ∈ new, Plain x ∧ s.dom.length ≤ x.node) ∧ Core q s' ∧ Up s.dom d

theorem inner_ok (hq : q) (block : Nat) : ∀ (l P Q : List Entry) (i last : Nat) (bm : Bookmark) (s : S), s.stack = P ++ (l ++ Q) → Core q s →
    (∀ e ∈ l, Plain e) → PlainAt s.dom last → Tame s.dom → Sat q (fun r => Looped q P Q s r.2.2 ∧ PlainAt r.2.2.dom r.1) (innerLoop block l i last bm s)
  | [], P, Q, i, last, bm, s, hs, h, _, hp, _ => ⟨⟨s.dom, [], s.fmt, by rw [← hs], by simp, h, Up.refl _⟩, hp⟩
  | e :: l, P, Q, i, last, bm, s, hs, h, hl, hlast, htm => by
    unfold innerLoop
    dsimp only
    generalize (3 < i && inFmt e.node s.fmt) = gone
    generalize (if (gone && bm == Bookmark.entry e.node) = true then Bookmark.stale else bm) = bm'
    have key : ∀ f : List Fmt, (∀ x, Fmt.el x ∈ f → Fmt.el x ∈ s.fmt) →
        Sat q (fun r => Looped q P Q s r.2.2 ∧ PlainAt r.2.2.dom r.1) (if inFmt e.node f = true then do
            let d ← moveNode (s.dom ++ [⟨.elem .html e.tag e.attrs, none, []⟩]) (.last s.dom.length) last
            innerLoop block l (i + 1) s.dom.length (if last = block then nextFmt s.dom.length (replaceFmt e.node s.dom.length f) .fin else
              (if bm' == Bookmark.entry e.node then .entry s.dom.length else bm'))
              { s with dom := d, stack := s.stack.map (fun (x : Entry) => if x.node = e.node then { x with node := s.dom.length } else x),
                       fmt := replaceFmt e.node s.dom.length f }
          else do
            let s ← removeNode { s with fmt := f } e.node
            innerLoop block l (i + 1) last bm' s) := by
      intro f hf
      have hc : CoreOf q s.dom (P ++ e :: (l ++ Q)) f s.form s.head s.tmpl := by
        have : CoreOf q s.dom s.stack f s.form s.head s.tmpl := CoreOf.fmt' h hf
        rwa [hs] at this
      obtain ⟨hP, hQ⟩ := mid_nodup hc.nodup
      refine Sat.ite (fun _ => ?_) fun _ => ?_
      · have hc1 := hc.renew (a := e.attrs) (hl e (by simp))
        have hadd : Kept s.dom (s.dom ++ [⟨.elem .html e.tag e.attrs, none, []⟩]) := Kept.add (by simp) (by simp)
        have hnew : PlainAt (s.dom ++ [⟨.elem .html e.tag e.attrs, none, []⟩]) s.dom.length :=
          ⟨(.html, e.tag), by unfold tagAt; rw [Forest.kind_add, if_pos rfl], (hl e (by simp)).2⟩
        have hlast1 := hlast.kept hadd
        refine Sat.bind (moveNode_ok hq (p := s.dom.length) hc1.tops.wf rfl hnew.elem (hnew.deep hc1.tops) hlast1.elem.lt
          (hlast1.elem.ne hc1.tops.wf) (hlast1.inner hc1.tops (htm.kept h.tops.wf hadd))) fun d hd => ?_
        have hmap : s.stack.map (fun (x : Entry) => if x.node = e.node then { x with node := s.dom.length } else x) =
            (P ++ [{ e with node := s.dom.length }]) ++ (l ++ Q) := by
          rw [hs, List.map_append, List.cons_append, List.map_cons, if_pos rfl, map_same hP, map_same hQ]
          simp
        have hc2 := hc1.up hd.1
        have hup : Up s.dom d := Up.trans ⟨by simp, fun y hy => by rw [parent_append hy]; exact hy, hadd⟩ hd.1
        refine (inner_ok hq block l (P ++ [{ e with node := s.dom.length }]) Q (i + 1) s.dom.length _ _ hmap ?_ (fun x hx => hl x (by simp [hx])) (hnew.kept hd.1.2.2) (htm.kept h.tops.wf hup.2.2)).mono ?_
        · show CoreOf q d (s.stack.map _) _ _ _ _
          rw [hmap]
          simpa using hc2
        · rintro ⟨last', bm2, s'⟩ ⟨⟨d2, new, f2, rfl, h1, h2, h3⟩, h4⟩
          have hlen : s.dom.length ≤ d.length := hup.1
          refine ⟨⟨d2, { e with node := s.dom.length } :: new, f2, by simp, ?_, h2, hup.trans h3⟩, h4⟩
          intro x hx
          rcases List.mem_cons.mp hx with rfl | hx
          · exact ⟨hl e (by simp), Nat.le_refl _⟩
          · exact ⟨(h1 x hx).1, Nat.le_trans hlen (h1 x hx).2⟩
      · have hrem : removeNode { s with fmt := f } e.node = .ok { s with fmt := f, stack := P ++ (l ++ Q) } := by
          unfold removeNode
          have h1 : hasNode { s with fmt := f } e.node = true := by
            show s.stack.any _ = true
            rw [hs]; simp
          rw [if_pos h1]
          show Except.ok { s with fmt := f, stack := s.stack.eraseP _ } = _
          rw [hs]
          congr 2
          exact erase_mid hP
        rw [hrem, bind_ok]
        refine (inner_ok hq block l P Q (i + 1) last _ { s with fmt := f, stack := P ++ (l ++ Q) } rfl ?_ (fun x hx => hl x (by simp [hx])) hlast htm).mono ?_
        · exact hc.sub (List.Sublist.append_left (List.sublist_cons_self _ _) _)
        · rintro ⟨last', bm2, s'⟩ ⟨⟨d2, new, f2, rfl, h1, h2, h3⟩, h4⟩
          exact ⟨⟨d2, new, f2, rfl, h1, h2, h3⟩, h4⟩
    cases gone with
    | false => exact key s.fmt fun _ h => h
    | true => exact key (dropFmt e.node s.fmt) (drop_sub _ _)

theorem insertFmt_ok (hq : q) (x : Entry) : ∀ (b : Bookmark) (l : List Fmt), Sat q (fun f => ∀ e, Fmt.el e ∈ f → e = x ∨ Fmt.el e ∈ l) (insertFmt x b l)
  | .fin, l => by unfold insertFmt; intro e he; simpa [Sat] using he
  | .stale, l => by unfold insertFmt; exact .inr ⟨hq, .inl rfl⟩
  | .entry _, [] => by unfold insertFmt; exact .inr ⟨hq, .inl rfl⟩
  | .mark _, [] => by unfold insertFmt; exact .inr ⟨hq, .inl rfl⟩
  | .mark k, .marker :: l => by
    unfold insertFmt
    refine Sat.ite (fun _ => ?_) fun _ => Sat.bind (insertFmt_ok hq x (.mark k) l) fun f hf => ?_
    · intro e he; simpa using he
    · intro e he
      simp only [List.mem_cons, reduceCtorEq, false_or] at he ⊢
      exact hf e he
  | .mark k, .el y :: l => by
    unfold insertFmt
    refine Sat.bind (insertFmt_ok hq x (.mark k) l) fun f hf => ?_
    intro e he
    simp only [List.mem_cons] at he ⊢
    rcases he with he | he
    · exact .inr (.inl he)
    · rcases hf e he with h | h
      · exact .inl h
      · exact .inr (.inr h)
  | .entry n, .marker :: l => by
    unfold insertFmt
    refine Sat.bind (insertFmt_ok hq x (.entry n) l) fun f hf => ?_
    intro e he
    simp only [List.mem_cons, reduceCtorEq, false_or] at he ⊢
    exact hf e he
  | .entry n, .el y :: l => by
    unfold insertFmt
    refine Sat.ite (fun _ => ?_) fun _ => Sat.bind (insertFmt_ok hq x (.entry n) l) fun f hf => ?_
    · intro e he
      simp only [List.mem_cons, Fmt.el.injEq] at he ⊢
      rcases he with he | he | he
      · exact .inr (.inl he)
      · exact .inl he
      · exact .inr (.inr he)
    · intro e he
      simp only [List.mem_cons] at he ⊢
      rcases he with he | he
      · exact .inr (.inl he)
      · rcases hf e he with h | h
        · exact .inl h
        · exact .inr (.inr h)

theorem insertAbove_ok {P Q : List Entry} {e x : Entry} (h : ∀ y ∈ P, y.node ≠ e.node) :
    insertAbove e.node x (P ++ e :: Q) = .ok (P ++ x :: e :: Q) := by
  induction P with
  | nil => simp [insertAbove]
  | cons p P ih =>
    simp only [List.cons_append]
    unfold insertAbove
    rw [if_neg (h p (by simp)), ih fun y hy => h y (by simp [hy])]
    rfl

/-- What the algorithm leaves. -/
def Adopted (q : Prop) (z : Zone) (s s' : S) : Prop := ∃ d st f, s' = { s with dom := d, stack := st, fmt := f } ∧ Core q s' ∧ Sh z st ∧
  (∀ x ∈ st, x ∈ s.stack ∨ s.dom.length ≤ x.node) ∧ Up s.dom d

theorem Adopted.refl (h : Core q s) (hs : Sh z s.stack) : Adopted q z s s := ⟨s.dom, s.stack, s.fmt, rfl, h, hs, fun _ h => .inl h, Up.refl _⟩

theorem Adopted.trans {s1 s2 s3 : S} (h1 : Adopted q z s1 s2) (h2 : Adopted q z s2 s3) : Adopted q z s1 s3 := by
  obtain ⟨d, st, f, rfl, a1, a2, a3, a4⟩ := h1
  obtain ⟨d', st', f', rfl, b1, b2, b3, b4⟩ := h2
  refine ⟨d', st', f', rfl, b1, b2, fun x hx => ?_, a4.trans b4⟩
  rcases b3 x hx with h | h
  · exact a3 x h
  · exact .inr (Nat.le_trans a4.1 h)

theorem dropWhile_mid {P Q : List Entry} {e : Entry} (h : ∀ x ∈ P, x.node ≠ e.node) :
    (P ++ e :: Q).dropWhile (fun x => x.node != e.node) = e :: Q := by
  induction P with
  | nil => simp
  | cons p P ih =>
    rw [List.cons_append, List.dropWhile_cons, if_pos (by simpa using h p (by simp)), ih fun x hx => h x (by simp [hx])]

theorem takeWhile_mid {P Q : List Entry} {e : Entry} (h : ∀ x ∈ P, x.node ≠ e.node) :
    (P ++ e :: Q).takeWhile (fun x => x.node != e.node) = P := by
  induction P with
  | nil => simp
  | cons p P ih =>
    rw [List.cons_append, List.takeWhile_cons, if_pos (by simpa using h p (by simp)), ih fun x hx => h x (by simp [hx])]

theorem above_mid {P Q : List Entry} {e : Entry} (h : ∀ x ∈ Q, x.node ≠ e.node) : above e.node (P ++ e :: Q) = P.reverse := by
  unfold above
  rw [List.reverse_append, List.reverse_cons, List.append_assoc, List.singleton_append, dropWhile_mid (by simpa using h)]
  rfl

/-- One round: `fe` above `b`, `fb` above `fe`, what is between them is not special. -/
theorem adopt_ok (hq : q) {r m b : List Entry} {fe fb : Entry} (h : Core q s) (hs : s.stack = r ++ fb :: (m ++ fe :: b)) (hr : ∀ x ∈ r, Plain x)
    (hfb : Plain fb) (hm : ∀ x ∈ m, Plain x) (hfe : Plain fe) (hb : Sh z b) : Sat q (fun s' => Adopted q z s s') (adopt s fe fb) := by
  have hc : CoreOf q s.dom (r ++ fb :: (m ++ fe :: b)) s.fmt s.form s.head s.tmpl := by
    have : CoreOf q s.dom s.stack s.fmt s.form s.head s.tmpl := h
    rwa [hs] at this
  have e1 : r ++ fb :: (m ++ fe :: b) = (r ++ fb :: m) ++ fe :: b := by simp
  have n1 := mid_nodup (P := r) hc.nodup
  have n2 := mid_nodup (P := r ++ fb :: m) (e1 ▸ hc.nodup)
  have htm : Tame s.dom := ((((hb.push hfe).pushes hm).push hfb).pushes hr).tame hc.tops
  unfold adopt
  obtain ⟨anc, b', rfl⟩ : ∃ anc b', b = anc :: b' := by
    cases b with
    | nil => exact absurd rfl hb.rooted.ne
    | cons x y => exact ⟨x, y, rfl⟩
  have d1 : s.stack.dropWhile (fun e => e.node != fe.node) = fe :: anc :: b' := by
    rw [hs, e1, dropWhile_mid n2.1]
  rw [d1]
  have d2 : ((above fe.node s.stack).takeWhile fun e => e.node != fb.node).reverse = m := by
    rw [hs, e1, above_mid n2.2, List.reverse_append, List.reverse_cons, List.append_assoc, List.singleton_append, takeWhile_mid, List.reverse_reverse]
    intro x hx
    exact n1.2 x (by simp [List.mem_reverse.mp hx])
  dsimp only
  rw [d2]
  refine Sat.bind (inner_ok hq fb.node m (r ++ [fb]) (fe :: anc :: b') 1 fb.node _ s (by rw [hs]; simp) h hm
    (plain_at h.tops (by rw [hs]; simp) hfb) htm) ?_
  rintro ⟨last, bm, s1⟩ ⟨⟨d, new, f, rfl, h1, h2, h3⟩, hlast⟩
  dsimp only at h2 hlast ⊢
  have h2 : CoreOf q d ((r ++ [fb]) ++ (new ++ fe :: anc :: b')) f s.form s.head s.tmpl := h2
  have hsh : Sh z ((r ++ [fb]) ++ (new ++ fe :: anc :: b')) :=
    ((hb.push hfe).pushes fun x hx => (h1 x hx).1).pushes fun x hx => by
      rcases List.mem_append.mp hx with hx | hx
      · exact hr x hx
      · cases List.mem_singleton.mp hx; exact hfb
  obtain ⟨pl, p, h4, h5, h5', h5''⟩ := place_ok (s := { s with dom := d, stack := (r ++ [fb]) ++ (new ++ fe :: anc :: b'), fmt := f }) h2 hsh.rooted
    (target := anc) (by simp)
  have hdp : Deep d p := h5'' (hb.dp.2.1 anc b' rfl) hsh.tabled
  rw [h4, bind_ok]
  refine Sat.bind (moveNode_ok hq h2.tops.wf h5 h5' hdp hlast.elem.lt (hlast.elem.ne h2.tops.wf) (hlast.inner h2.tops (hsh.tame h2.tops))) fun d3 hd3 => ?_
  unfold create
  dsimp only
  have t3 := h2.tops.up hd3.1.2.2
  have hfb3 : PlainAt d3 fb.node := plain_at t3 (by simp) hfb
  have hadd : Kept d3 (d3 ++ [⟨.elem .html fe.tag fe.attrs, none, []⟩]) := Kept.add (by simp) (by simp)
  have w3' := hadd.wf t3.wf
  have hnk : Forest.tagAt (d3 ++ [⟨.elem .html fe.tag fe.attrs, none, []⟩]) d3.length = some (.html, fe.tag) := by
    unfold tagAt; rw [Forest.kind_add, if_pos rfl]
  have hnew : PlainAt (d3 ++ [⟨.elem .html fe.tag fe.attrs, none, []⟩]) d3.length := ⟨_, hnk, hfe.2⟩
  have hfb3' := hfb3.kept hadd
  have hnp : parentOf (d3 ++ [⟨.elem .html fe.tag fe.attrs, none, []⟩]) d3.length = none := by
    rw [Forest.parent_add]
    cases hq : parentOf d3 d3.length with
    | none => rfl
    | some => exact absurd (Forest.lt_of_parent hq) (by simp)
  have hnl : d3.length ∉ kidsOf (d3 ++ [⟨.elem .html fe.tag fe.attrs, none, []⟩]) fb.node := fun hx => by
    rw [Forest.kids_add, t3.wf.kid] at hx
    exact Nat.lt_irrefl _ (Forest.lt_of_parent hx)
  have hbel : ¬ Below (d3 ++ [⟨.elem .html fe.tag fe.attrs, none, []⟩]) d3.length fb.node := fun hc => by
    have h1 : fb.node = d3.length := Forest.below_fresh (fun y hy => by rw [Forest.parent_add] at hy; exact absurd (t3.wf.lt hy) (by simp)) hc
    have := hfb3.elem.lt
    omega
  refine Sat.bind (moveKids_ok hq (fb := fb.node) _ _ w3' hnew.elem (hnew.deep (t3.up hadd)) hfb3'.elem (hfb3'.deep (t3.up hadd))
    (fun x hx => (w3'.kid _ _).mp hx) (w3'.once _) hnl hnp hbel) fun d4 hd4 => ?_
  obtain ⟨d5, h6, h7, h8⟩ := link_ok (d := d4) (pl := .last fb.node) (p := fb.node) (x := d3.length) rfl
  rw [h6, bind_ok]
  have u3 : Up d d3 := hd3.1
  have u4 : Up d3 d4 := Up.trans ⟨by simp, fun y hy => by rw [parent_append hy]; exact hy, hadd⟩ hd4.1
  have l4 : d4.length = d3.length + 1 := by rw [hd4.2.1]; simp
  have w4 := u4.2.2.wf t3.wf
  have hfb4 := hfb3.kept u4.2.2
  have u5 : Up d4 d5 := by
    refine ⟨by omega, fun y hy => ?_, Kept.link_old w4 (by omega) (Nat.ne_of_gt t3.wf.pos) hd4.2.2.2.1 ⟨hfb4.elem, hfb4.deep (t3.up u4.2.2)⟩
      hd4.2.2.2.2 h6⟩
    rw [h8]
    split
    · simp
    · exact hy
  refine Sat.bind (insertFmt_ok hq _ _ _) fun f2 hf2 => ?_
  have e2 : (r ++ [fb]) ++ (new ++ fe :: anc :: b') = (r ++ fb :: new) ++ fe :: (anc :: b') := by simp
  have n3 := mid_nodup (P := r ++ fb :: new) (e2 ▸ h2.nodup)
  have hrem : ∀ f3, removeNode { s with dom := d5, stack := (r ++ [fb]) ++ (new ++ fe :: anc :: b'), fmt := f3 } fe.node =
      .ok { s with dom := d5, stack := r ++ fb :: (new ++ anc :: b'), fmt := f3 } := by
    intro f3
    unfold removeNode
    have h1 : hasNode { s with dom := d5, stack := (r ++ [fb]) ++ (new ++ fe :: anc :: b'), fmt := f3 } fe.node = true := by
      show List.any _ _ = true
      simp
    rw [if_pos h1]
    show Except.ok { s with dom := d5, fmt := f3, stack := List.eraseP _ ((r ++ [fb]) ++ (new ++ fe :: anc :: b')) } = _
    rw [e2, erase_mid n3.1]
    simp
  have hrem' := hrem f2
  rw [hrem', bind_ok]
  have hbase : CoreOf q d3 (r ++ fb :: (new ++ anc :: b')) f s.form s.head s.tmpl := by
    refine (h2.up u3).sub ?_
    rw [e2]
    have : r ++ fb :: (new ++ anc :: b') = (r ++ fb :: new) ++ anc :: b' := by simp
    rw [this]
    exact List.Sublist.append_left (List.sublist_cons_self _ _) _
  have n4 := mid_nodup (P := r) hbase.nodup
  dsimp only
  rw [insertAbove_ok n4.1, bind_ok]
  have up5 : Up d3 d5 := u4.trans u5
  have hpush := hbase.push (d := d5) (e := ⟨d3.length, .html, fe.tag, fe.attrs⟩) up5 rfl (by omega) rfl (Ins.plain hfe.2)
    (fun hc => absurd hc (plain_tag hfe).2.1) (u5.2.2.tags _ _ (hd4.1.2.2.tags _ _ hnk))
  have hperm := hpush.perm (st := r ++ ⟨d3.length, .html, fe.tag, fe.attrs⟩ :: fb :: (new ++ anc :: b')) List.perm_middle
  have hx : Plain ⟨d3.length, .html, fe.tag, fe.attrs⟩ := ⟨rfl, hfe.2⟩
  refine ⟨d5, _, f2, rfl, ?_, ?_, ?_, h3.trans (u3.trans up5)⟩
  · show CoreOf q d5 _ f2 s.form s.head s.tmpl
    have hadd := hperm.add hq (e := ⟨d3.length, .html, fe.tag, fe.attrs⟩) (by show d3.length < d5.length; omega) hfe.2 (by
      intro y hy hye
      have : y = ⟨d3.length, .html, fe.tag, fe.attrs⟩ := node_inj hperm.nodup hy (by simp) hye
      rw [this]; exact hfe.2)
    refine CoreOf.fmt' hadd fun e he => ?_
    rcases hf2 e he with rfl | he
    · simp
    · exact List.mem_cons_of_mem _ (drop_sub _ _ e he)
  · refine Sh.pushes (Sh.push hx (Sh.push hfb (Sh.pushes hb fun x hx => (h1 x hx).1))) hr
  · intro x hx
    rw [hs]
    simp only [List.mem_append, List.mem_cons] at hx ⊢
    rcases hx with hx | rfl | rfl | hx | hx | hx
    · exact .inl (.inl hx)
    · exact .inr (Nat.le_trans h3.1 u3.1)
    · exact .inl (.inr (.inl rfl))
    · exact .inr (h1 x hx).2
    · exact .inl (.inr (.inr (.inr (.inr (.inl hx)))))
    · exact .inl (.inr (.inr (.inr (.inr (.inr hx)))))

theorem findFmt_mem {t : Tag} : ∀ {l : List Fmt} {e : Entry}, findFmt t l = some e → Fmt.el e ∈ l
  | [], _, h => by simp [findFmt] at h
  | .marker :: l, _, h => by simp [findFmt] at h
  | .el x :: l, e, h => by
    unfold findFmt at h
    split at h
    · cases h; simp
    · exact List.mem_cons_of_mem _ (findFmt_mem h)

/-- Entries of nodes of the list are plain. -/
theorem fmt_plain (h : Core q s) {e : Entry} (he : Fmt.el e ∈ s.fmt) : ∀ x ∈ s.stack, (x.node == e.node) = true → Plain x := by
  intro x hx hxe
  exact ⟨(h.names x hx).1, (h.fmts e he).2.2 x hx (by simpa using hxe)⟩

theorem outer_ok (t : Tag) : ∀ (k : Nat) (s : S), Core q s → Sh z s.stack → Sat q (fun r => Adopted q z s r.2) (outerLoop t k s)
  | 0, s, h, hs => Adopted.refl h hs
  | k + 1, s, h, hs => by
    unfold outerLoop
    split
    · exact Adopted.refl h hs
    · rename_i fe hfe
      have hm := findFmt_mem hfe
      refine Sat.ite (fun _ => ?_) fun hn => ?_
      · exact ⟨s.dom, s.stack, _, rfl, CoreOf.fmt' h (drop_sub _ _), hs, fun _ h => .inl h, Up.refl _⟩
      · rcases scope_sh sc_default hs (p := (·.node == fe.node)) (fmt_plain h hm) with h1 | ⟨h1, hit⟩
        · rw [h1, bind_ok]
          exact Adopted.refl h hs
        · rw [h1, bind_ok]
          obtain ⟨e0, he0, -⟩ := cur_ok hs.rooted
          simp only [if_true]
          rw [he0, bind_ok]
          have hit' := hit
          obtain ⟨a, x, b, hst, ha, hx, hxp, hb⟩ := hit
          have hxn : x.node = fe.node := by simpa using hx
          have hc : CoreOf q s.dom (a ++ x :: b) s.fmt s.form s.head s.tmpl := by
            have : CoreOf q s.dom s.stack s.fmt s.form s.head s.tmpl := h
            rwa [hst] at this
          have nn := mid_nodup hc.nodup
          have hab : above fe.node s.stack = a.reverse := by
            rw [hst, ← hxn]
            exact above_mid nn.2
          rw [hab]
          split
          · exact ⟨s.dom, _, _, rfl, CoreOf.fmt' (CoreOf.sub h (popUntil_suffix _ _).sublist) (drop_sub _ _), popUntil_hit hit',
              fun x hx => .inl ((popUntil_suffix _ _).subset hx), Up.refl _⟩
          · rename_i fb hfb
            rw [List.find?_eq_some_iff_append] at hfb
            obtain ⟨hsp, m', r', har, hms⟩ := hfb
            have ha' : a = r'.reverse ++ fb :: m'.reverse := by
              have := congrArg List.reverse har
              simpa using this
            have hfind : ((s.stack.find? fun e => e.node == fe.node).getD fe) = x := by
              have : s.stack.find? (fun e => e.node == fe.node) = some x := by
                rw [List.find?_eq_some_iff_append]
                exact ⟨hx, a, b, hst, fun y hy => by simpa using (ha y hy).1⟩
              rw [this]; rfl
            rw [hfind]
            refine Sat.bind (adopt_ok (z := z) (h.loud hm) (r := r'.reverse) (m := m'.reverse) (b := b) h (by rw [hst, ha']; simp)
              (fun y hy => (ha y (by rw [ha']; simp only [List.mem_append]; exact .inl hy)).2)
              (ha fb (by rw [ha']; simp)).2
              (fun y hy => (ha y (by rw [ha']; simp only [List.mem_append, List.mem_cons]; exact .inr (.inr hy))).2) hxp hb) ?_
            intro s1 h1
            have h1' := h1
            obtain ⟨d, st, f, rfl, a1, a2, a3, a4⟩ := h1
            exact (outer_ok t k _ a1 a2).mono fun r hr => h1'.trans hr

theorem Sh.tail {e : Entry} {l : List Entry} (h : Sh z (e :: l)) (he : Plain e) : Sh z l := by
  obtain ⟨pre, base, hs, h1, h2⟩ := h
  cases pre with
  | nil =>
    obtain ⟨e', r, ks, hb, h3, h4⟩ := base_head h2
    rw [List.nil_append, hb] at hs
    cases hs
    exact absurd he (not_plain h3 h4)
  | cons x pre =>
    cases hs
    exact ⟨pre, base, rfl, fun y hy => h1 y (by simp [hy]), h2⟩

theorem adoption_ok {t : Tag} (h : Core q s) (hs : Sh z s.stack) (ht : t.mem structural = false) : Sat q (fun r => Adopted q z s r.2) (adoption s t) := by
  unfold adoption
  cases hst : s.stack with
  | nil => exact absurd hst hs.rooted.ne
  | cons e l =>
    have hc : cur s = .ok e := by unfold cur; rw [hst]
    rw [hc, bind_ok]
    refine Sat.ite (fun hi => ?_) fun _ => outer_ok t 8 s h hs
    have hp : pop s = .ok { s with stack := l } := by unfold pop; rw [hst]
    rw [hp, bind_ok]
    have hpl : Plain e := by
      rw [Bool.and_eq_true] at hi
      have := hi.1
      unfold Entry.isTag at this
      rw [Bool.and_eq_true] at this
      exact ⟨by simpa using this.1, by rw [show e.tag = t by simpa using this.2]; exact ht⟩
    refine ⟨s.dom, l, s.fmt, rfl, CoreOf.sub h (by rw [hst]; exact List.sublist_cons_self _ _), (hst ▸ hs).tail hpl, fun x hx => .inl (by rw [hst]; simp [hx]), Up.refl _⟩

end Verif.Proof.HtmlTree.Safe
