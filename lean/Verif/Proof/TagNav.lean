import Verif.Proof.TagOps

/-! Navigation in the tag tree. -/
namespace Verif.Proof.TagTree
open Verif.Spec Verif.Spec.Forest Verif.Spec.Tags Verif.Model.TagTree
variable {α : Type}

theorem seg_find {nx pv : Nat → Nat} {f : TF α} (w : wf f) {a b p y c} (S : Seg nx pv a (names f) b)
    (h : find f p = some (y, c)) (hy : y.2 ≠ 0) : Seg nx pv p (names c) y.2 := by
  induction f generalizing a b with
  | nil => simp [find] at h
  | cons i z d s hd' hs =>
    obtain ⟨w1, w2, w3⟩ := w
    rw [find] at h
    by_cases hi : p = i
    · rw [if_pos hi] at h
      obtain ⟨rfl, rfl⟩ := by simpa using h
      rw [names, if_neg hy] at S
      rw [hi]
      exact (seg_mid.mp S.2.2).1
    · rw [if_neg hi] at h
      cases hq : find d p with
      | some r =>
        rw [hq] at h
        simp only [Option.some_or, Option.some.injEq] at h
        subst h
        have hz : z.2 ≠ 0 := by
          intro h
          rw [w1 h] at hq; simp [find] at hq
        rw [names, if_neg hz] at S
        exact hd' w2 (seg_mid.mp S.2.2).1 hq
      | none =>
        rw [hq] at h
        simp only [Option.none_or] at h
        rw [names] at S
        by_cases hz : z.2 = 0
        · rw [if_pos hz] at S
          exact hs w3 S.2.2 h
        · rw [if_neg hz] at S
          exact hs w3 (seg_mid.mp S.2.2).2 h

section
variable [Inhabited α] {t : T α} {f : TF α} {l d : List Nat}

/-- A place whose children may be listed. -/
def Holds (f : TF α) (p : Nat) : Prop := p = 0 ∨ p ∈ ids f ∧ close f p ≠ 0

theorem Rep.under_seg (R : Rep t f l d) {p} (hp : Holds f p) : Seg t.next t.prev p (names (under f p)) (close f p) := by
  rcases hp with rfl | ⟨hp, hc⟩
  · simpa [under, close] using R.lk.main
  · obtain ⟨y, c, h⟩ := find_some hp
    rw [close_find R.zero h] at hc ⊢
    rw [under_find R.zero h]
    exact seg_find R.ok R.lk.main h hc

theorem Rep.under_nodes (R : Rep t f l d) {p} (hp : Holds f p) : (∀ n ∈ nodes (under f p), n ∈ nodes f) ∧ wf (under f p) ∧
    roots (under f p) = children f p := by
  rcases hp with rfl | ⟨hp, hc⟩
  · simpa [under, children] using R.ok
  · obtain ⟨y, c, h⟩ := find_some hp
    rw [under_find R.zero h, children_find R.nd R.zero h]
    exact ⟨(Verif.Proof.Tree.find_nodes h).2, (wf_find R.ok h).2, rfl⟩

theorem Rep.holds_of_child (R : Rep t f l d) {p x} (hp : p = 0 ∨ p ∈ ids f) (hx : x ∈ children f p) : Holds f p := by
  rcases hp with rfl | hp
  · exact Or.inl rfl
  · refine Or.inr ⟨hp, ?_⟩
    obtain ⟨y, c, h⟩ := find_some hp
    rw [close_find R.zero h]
    intro hy
    rw [children_find R.nd R.zero h, (wf_find R.ok h).1 hy] at hx
    simp [roots] at hx

theorem names_sub {g : TF α} (hg : ∀ n ∈ nodes g, n ∈ nodes f) (wg : wf g) (wf' : wf f) : ∀ i ∈ names g, i ∈ names f := by
  intro i hi
  rcases (mem_names wg).mp hi with h | h
  · rw [ids_eq] at h
    obtain ⟨n, hn, rfl⟩ := List.mem_map.mp h
    refine (mem_names wf').mpr (Or.inl ?_)
    rw [ids_eq]; exact List.mem_map_of_mem (hg n hn)
  · unfold ends at h
    obtain ⟨h1, h2⟩ := List.mem_filter.mp h
    obtain ⟨n, hn, rfl⟩ := List.mem_map.mp h1
    refine (mem_names wf').mpr (Or.inr (List.mem_filter.mpr ⟨List.mem_map.mpr ⟨n, hg n hn, rfl⟩, h2⟩))

theorem place_hd {s : TF α} (f : TF α) (p : Nat) (h0 : 0 ∉ roots s) :
    hd (names s) (close f p) = place f p ((roots s).headD 0) := by
  rw [hd_names, place]
  cases h : roots s with
  | nil => simp
  | cons a A =>
    have : a ≠ 0 := by rintro rfl; exact h0 (by simp [h])
    simp [this]

/-- What lies around a node. -/
theorem Rep.around (R : Rep t f l d) {p A x B} (hp : p = 0 ∨ p ∈ ids f) (h : children f p = A ++ x :: B) :
    ∃ y k, find f x = some (y, k) ∧ t.next (lst 0 (tags x y k)) = place f p (B.headD 0) ∧
      t.prev (place f p (B.headD 0)) = lst 0 (tags x y k) := by
  have hh := R.holds_of_child (x := x) hp (by rw [h]; simp)
  obtain ⟨h1, h2, h3⟩ := R.under_nodes hh
  have S := R.under_seg hh
  rw [← h3] at h
  obtain ⟨g1, y, k, s, e, e1, e2⟩ := split_root h
  have hn : (x, y) ∈ nodes f := h1 _ (by rw [e, nodes_append]; simp [nodes])
  have hrs : 0 ∉ roots s := by
    intro h'
    refine R.zero ?_
    have : (0 : Nat) ∈ roots (under f p) := by rw [h, ← e2]; simp [h']
    have := roots_sub _ _ this
    rw [ids_eq] at this ⊢
    obtain ⟨n, hn, e⟩ := List.mem_map.mp this
    exact List.mem_map.mpr ⟨n, h1 n hn, e⟩
  obtain ⟨y', k', hf⟩ := find_some (mem_ids hn)
  have hyy : y' = y ∧ (tags x y' k' = tags x y k) := by
    have hn' := find_node R hf
    have : y' = y := by
      have T1 := R.tg _ hn'
      have T2 := R.tg _ hn
      exact Prod.ext (T1.val.symm.trans T2.val) (T1.tail.symm.trans T2.tail)
    subst this
    refine ⟨rfl, ?_⟩
    unfold tags
    by_cases hy : y'.2 = 0
    · rw [if_pos hy, if_pos hy]
    · rw [if_neg hy, if_neg hy]
      have S1 := seg_find R.ok R.lk.main hf hy
      have S2 : Seg t.next t.prev x (names k) y'.2 := by
        rw [e, names_append, names, if_neg hy] at S
        exact (seg_mid.mp (seg_mid.mp S).2).1
      have key : ∀ {u v : List Nat} {a b : Nat}, Seg t.next t.prev a u b → Seg t.next t.prev a v b → b ∉ u → b ∉ v → u = v := by
        intro u
        induction u with
        | nil =>
          intro v a b s1 s2 _ hv
          cases v with
          | nil => rfl
          | cons c v => exact absurd (by rw [← s1.1, s2.1]; simp) hv
        | cons d u ih =>
          intro v a b s1 s2 hu hv
          cases v with
          | nil => exact absurd (by rw [← s2.1, s1.1]; simp) hu
          | cons c v =>
            have : d = c := s1.1.symm.trans s2.1
            subst this
            rw [ih s1.2.2 s2.2.2 (fun h => hu (by simp [h])) (fun h => hv (by simp [h]))]
      rw [key S1 S2]
      · intro hm
        have nd := R.lk.ndw
        obtain ⟨A', B', e3, _⟩ := names_erase R.ok R.nd hf
        rw [e3, tags, if_neg hy] at nd
        have := (List.nodup_append.mp (List.nodup_append.mp nd).1).2.1
        have := (List.nodup_append.mp (List.nodup_cons.mp this).2).2.2 _ hm y'.2 (by simp)
        exact this rfl
      · intro hm
        have hnd : (names (under f p)).Nodup := by
          rcases hh with rfl | ⟨hp', hc⟩
          · simpa [under] using R.lk.ndw
          · obtain ⟨y2, c2, hf2⟩ := find_some hp'
            rw [close_find R.zero hf2] at hc
            rw [under_find R.zero hf2]
            obtain ⟨A', B', e3, _⟩ := names_erase R.ok R.nd hf2
            have nd := R.lk.ndw
            rw [e3, tags, if_neg hc] at nd
            have := (List.nodup_append.mp (List.nodup_append.mp nd).1).2.1
            exact (List.nodup_append.mp (List.nodup_cons.mp this).2).1
        rw [e, names_append, names, if_neg hy] at hnd
        have := (List.nodup_append.mp hnd).2.1
        have := (List.nodup_append.mp (List.nodup_cons.mp this).2).2.2 _ hm y'.2 (by simp)
        exact this rfl
  obtain ⟨rfl, ht⟩ := hyy
  refine ⟨y', k', hf, ?_⟩
  rw [ht]
  rw [e, names_append, names_cons, ← List.append_assoc, seg_split] at S
  rw [place_hd f p hrs, e2] at S
  have hl : ∀ a, lst a (names g1 ++ tags x y' k) = lst 0 (tags x y' k) := by
    intro a
    rw [lst_append, tags]; rfl
  have hprev := S.1.prev
  rw [hl] at hprev
  refine ⟨?_, hprev⟩
  -- the link from the last tag
  have hnext : ∀ {u : List Nat} {a b : Nat}, Seg t.next t.prev a u b → t.next (lst a u) = b := by
    intro u
    induction u with
    | nil => intro a b s; exact s.1
    | cons d u ih => intro a b s; exact ih s.2.2
  rw [← hl p]
  exact hnext S.1

theorem Rep.incr (R : Rep t f l d) {p A x B} (hp : p = 0 ∨ p ∈ ids f) (h : children f p = A ++ x :: B) :
    Verif.Model.TagTree.incr t x = some (place f p (B.headD 0)) := by
  obtain ⟨y, k, hf, h1, _⟩ := R.around hp h
  have hn := find_node R hf
  have hx := R.mem (mem_ids hn)
  have G := R.tg _ hn
  rw [Verif.Model.TagTree.incr, if_neg (R.lk.w0 hx), T.rd, if_pos (R.lk.w_lt hx), Option.bind_some, G.tail]
  rw [tags] at h1
  by_cases hy : y.2 = 0
  · rw [if_pos hy, T.rd, if_pos (R.lk.w_lt hx)]
    rw [if_pos hy] at h1
    rw [← h1]; rfl
  · rw [if_neg hy, T.rd, if_pos (R.lk.w_lt (R.mem_end hn hy))]
    rw [if_neg hy, lst, lst_append] at h1
    rw [← h1]; rfl

theorem Rep.place_lt (R : Rep t f l d) {p pos} (hp : Tags.IsPos f p pos) : place f p pos < t.len := by
  rw [place]
  by_cases h0 : pos = 0
  · rw [if_pos h0]
    rcases hp.1 with rfl | ⟨h, hc⟩
    · rw [close, if_pos rfl]; exact R.lk.len
    · obtain ⟨y, c, hf⟩ := find_some h
      rw [close_find R.zero hf] at hc ⊢
      exact R.lk.w_lt (R.mem_end (find_node R hf) hc)
  · rw [if_neg h0]
    exact R.lk.w_lt (R.mem (Verif.Proof.Tree.children_sub f p pos (hp.2.resolve_left h0)))

theorem Rep.isPos (R : Rep t f l d) {p A x B} (hp : p = 0 ∨ p ∈ ids f) (h : children f p = A ++ x :: B) :
    Tags.IsPos f p (B.headD 0) := by
  refine ⟨R.holds_of_child (x := x) hp (by rw [h]; simp), ?_⟩
  cases B with
  | nil => exact Or.inl rfl
  | cons b B => exact Or.inr (by rw [h]; simp)

theorem Rep.decr (R : Rep t f l d) {p A x B} (hp : p = 0 ∨ p ∈ ids f) (h : children f p = A ++ x :: B) :
    Verif.Model.TagTree.decr t (place f p (B.headD 0)) = some x := by
  obtain ⟨y, k, hf, _, h1⟩ := R.around hp h
  have hn := find_node R hf
  have hx := R.mem (mem_ids hn)
  have G := R.tg _ hn
  rw [Verif.Model.TagTree.decr, T.rd, if_pos (R.place_lt (R.isPos hp h)), Option.bind_some, h1, lst_tags]
  by_cases hy : y.2 = 0
  · rw [if_pos hy, if_neg (R.lk.w0 hx), T.rd, if_pos (R.lk.w_lt hx), G.head]; rfl
  · rw [if_neg hy, if_neg hy, T.rd, if_pos (R.lk.w_lt (R.mem_end hn hy)), G.ehead hy]
    simp [R.lk.w0 hx]

theorem parentLoop_seg {g : TF α} : ∀ {a b : Nat}, Seg t.next t.prev a (names g) b → (∀ n ∈ nodes g, Tg t n.1 n.2.1 n.2.2) →
    wf g → (∀ i ∈ names g, i < t.len ∧ i ≠ 0) → ∀ fuel,
    parentLoop t (fuel + (roots g).length) (lst a (names g)) = parentLoop t fuel a := by
  induction g with
  | nil => intros; rfl
  | cons i x k s _ hs =>
    intro a b S tg w lt fuel
    have G := tg (i, x) (by simp [nodes])
    have tgs : ∀ n ∈ nodes s, Tg t n.1 n.2.1 n.2.2 := fun n hn => tg n (by simp [nodes, hn])
    have hlt := lt i (by simp [names])
    rw [names] at S lt ⊢
    rw [roots, List.length_cons]
    by_cases hx : x.2 = 0
    · rw [if_pos hx] at S lt ⊢
      rw [lst, show fuel + ((roots s).length + 1) = (fuel + 1) + (roots s).length by omega,
        hs S.2.2 tgs w.2.2 (fun j hj => lt j (by simp [hj])) (fuel + 1)]
      rw [parentLoop, if_neg hlt.2, T.rd, if_pos hlt.1, Option.bind_some, G.tail]
      dsimp only
      rw [if_neg (by simpa using hx), T.rd, if_pos hlt.1, Option.bind_some, G.head]
      rw [if_neg (by simp), T.rd, if_pos hlt.1, Option.bind_some, S.2.1]
    · rw [if_neg hx] at S lt ⊢
      have he := lt x.2 (by simp)
      rw [lst, lst_append, lst, show fuel + ((roots s).length + 1) = (fuel + 1) + (roots s).length by omega,
        hs (seg_mid.mp S.2.2).2 tgs w.2.2 (fun j hj => lt j (by simp [hj])) (fuel + 1)]
      rw [parentLoop, if_neg he.2, T.rd, if_pos he.1, Option.bind_some, G.etail hx]
      rw [if_neg (by simp), T.rd, if_pos he.1, Option.bind_some, G.ehead hx]
      rw [if_pos hlt.2, T.rd, if_pos hlt.1, Option.bind_some, S.2.1]

theorem Rep.parent (R : Rep t f l d) {p pos} (hp : Tags.IsPos f p pos) :
    Verif.Model.TagTree.parent t (place f p pos) = some p := by
  obtain ⟨h1, h2, h3⟩ := R.under_nodes hp.1
  have S := R.under_seg hp.1
  have : ∃ g1, Seg t.next t.prev p (names g1) (place f p pos) ∧ (∀ n ∈ nodes g1, n ∈ nodes (under f p)) ∧ wf g1 ∧
      (roots g1).Sublist (roots (under f p)) := by
    by_cases h0 : pos = 0
    · exact ⟨under f p, by rw [place, if_pos h0]; exact S, fun _ h => h, h2, List.Sublist.refl _⟩
    · have hm := hp.2.resolve_left h0
      rw [← h3] at hm
      obtain ⟨A, B, e⟩ := List.append_of_mem hm
      obtain ⟨g1, y, k, s, e1, e2, e3⟩ := split_root e
      refine ⟨g1, ?_, ?_, ?_, ?_⟩
      · rw [place, if_neg h0]
        rw [e1, names_append, names] at S
        exact (seg_mid.mp S).1
      · intro n hn; rw [e1, nodes_append]; exact List.mem_append_left _ hn
      · rw [e1] at h2; exact (wf_append.mp h2).1
      · rw [e, e2]; simp
  obtain ⟨g1, S1, hn1, w1, hsub⟩ := this
  have hlt : ∀ i ∈ names g1, i < t.len ∧ i ≠ 0 := fun i hi =>
    have := names_sub (fun n hn => h1 n (hn1 n hn)) w1 R.ok i hi
    ⟨R.lk.w_lt this, R.lk.w0 this⟩
  have hlen : (roots g1).length + 1 ≤ t.len := by
    have hrin : ∀ x ∈ roots g1, x < t.len ∧ x ≠ 0 := fun x hx => hlt x ((mem_names w1).mpr (Or.inl (roots_sub _ _ hx)))
    have hnd : (0 :: roots g1).Nodup := by
      refine List.nodup_cons.mpr ⟨fun h => (hrin 0 h).2 rfl, hsub.nodup ?_⟩
      rw [h3]
      exact Verif.Proof.Tree.children_nodup R.nd p
    have := (List.subperm_of_subset hnd (l₂ := List.range t.len) (by
      intro x hx
      rw [List.mem_range]
      rcases List.mem_cons.mp hx with rfl | hx
      · exact R.lk.len
      · exact (hrin x hx).1)).length_le
    simpa using this
  rw [Verif.Model.TagTree.parent, T.rd, if_pos (R.place_lt hp), Option.bind_some, S1.prev]
  have := parentLoop_seg S1 (fun n hn => R.tg n (h1 n (hn1 n hn))) w1 hlt (t.len - (roots g1).length)
  rw [show t.len - (roots g1).length + (roots g1).length = t.len by omega] at this
  rw [this]
  rcases hp.1 with rfl | ⟨hpm, hc⟩
  · rw [parentLoop.eq_def]; simp
  · obtain ⟨m, hm⟩ : ∃ m, t.len - (roots g1).length = m + 1 := ⟨t.len - (roots g1).length - 1, by omega⟩
    obtain ⟨y, c, hf⟩ := find_some hpm
    have G := R.tg _ (find_node R hf)
    rw [close_find R.zero hf] at hc
    have hpn := R.mem hpm
    rw [hm, parentLoop, if_neg (R.lk.w0 hpn), T.rd, if_pos (R.lk.w_lt hpn), Option.bind_some, G.tail]
    dsimp only
    rw [if_pos hc]

theorem Rep.begin0 (R : Rep t f l d) : begin0 t = some (place f 0 ((children f 0).headD 0)) := by
  have S := R.under_seg (p := 0) (Or.inl rfl)
  have h3 := (R.under_nodes (p := 0) (Or.inl rfl)).2.2
  rw [Verif.Model.TagTree.begin0, T.rd, if_pos R.lk.len, S.next, place_hd, h3]
  intro h; exact R.zero (roots_sub _ _ (by simpa [under] using h))

theorem Rep.beginOf (R : Rep t f l d) {p} (hp : p ∈ ids f) :
    beginOf t p = some (place f p ((children f p).headD 0)) ∧ endOf t p = some (close f p) := by
  obtain ⟨y, c, hf⟩ := find_some hp
  have G := R.tg _ (find_node R hf)
  have hl := R.lk.w_lt (R.mem hp)
  rw [Verif.Model.TagTree.beginOf, Verif.Model.TagTree.endOf, T.rd, if_pos hl, Option.bind_some, G.tail,
    close_find R.zero hf]
  refine ⟨?_, rfl⟩
  dsimp only
  by_cases hy : y.2 = 0
  · rw [if_pos hy, children_find R.nd R.zero hf, (wf_find R.ok hf).1 hy]
    simp [roots, place, close_find R.zero hf, hy]
  · have hh : Holds f p := Or.inr ⟨hp, by rw [close_find R.zero hf]; exact hy⟩
    have S := R.under_seg hh
    have h3 := (R.under_nodes hh).2.2
    rw [if_neg hy, T.rd, if_pos hl, S.next, place_hd, h3]
    rw [h3]
    exact fun h => R.zero (Verif.Proof.Tree.children_sub f p 0 h)

end
end Verif.Proof.TagTree
