import Verif.Proof.TreeRep

/-! The operations of the tree container against the forest operations. -/
namespace Verif.Proof.Tree
open Verif.Model.Tree Verif.Spec Verif.Spec.Forest
variable {α : Type}

theorem size_cons (i : Nat) (v : α) (k s : Forest α) : (Forest.cons i v k s).size = 1 + k.size + s.size := by
  simp [Forest.size, ids]; omega

theorem Rep.len_eq {t : T α} {f g l} (R : Rep t f g l) : t.len = 1 + f.size + g.size + l.length := by
  have hp : (ids f ++ (ids g ++ l)).Perm ((List.range (t.len - 1)).map (· + 1)) := by
    rw [List.perm_ext_iff_of_nodup R.nd]
    · intro i
      rw [← R.range i, List.mem_map]
      constructor
      · intro h
        exact ⟨i - 1, List.mem_range.mpr (by omega), by omega⟩
      · rintro ⟨j, h, rfl⟩
        have := List.mem_range.mp h
        omega
    · refine List.Nodup.map ?_ List.nodup_range
      intro a b h
      simpa using h
  have := hp.length_eq
  have := R.len
  simp [Forest.size] at *
  omega

/-- All trees of `g` hang together in `t`. -/
structure Hung (t : T α) (g : Forest α) : Prop where
  nd : (ids g).Nodup
  zero : 0 ∉ ids g
  lt : ∀ x ∈ ids g, x < t.len
  chain : ∀ p ∈ ids g, Chain t p (kidsOf g p)

theorem Rep.hung {t : T α} {f g l} (R : Rep t f g l) : Hung t g :=
  ⟨R.ndg, R.g0, fun _ h => (R.g_lt h).2, R.gchain⟩

theorem Rep.fhung {t : T α} {f g l} (R : Rep t f g l) : Hung t f :=
  ⟨R.ndf, R.f0, fun _ h => (R.f_lt h).2, fun p h => by
    have := R.chain p (Or.inr h)
    rwa [children, if_neg (by rintro rfl; exact R.f0 h)] at this⟩

theorem ids_revAppend (k g : Forest α) : (ids (revAppend k g)).Perm (ids k ++ ids g) := by
  have := (nodes_revAppend k g).map Prod.fst
  simpa [ids_eq] using this

theorem Hung.rev {t : T α} {i v k g} (H : Hung t (.cons i v k g)) : Hung t (revAppend k g) := by
  have hc := nodup_cons H.nd
  have hm : ∀ x, x ∈ ids (revAppend k g) → x ∈ ids k ∨ x ∈ ids g := fun x h => by
    simpa using (ids_revAppend k g).mem_iff.mp h
  have hm' : ∀ x, x ∈ ids (revAppend k g) → x ∈ ids (Forest.cons i v k g) := fun x h => by
    simp only [ids, List.mem_cons, List.mem_append]; exact Or.inr (hm x h)
  refine ⟨?_, fun h => H.zero (hm' 0 h), fun x h => H.lt x (hm' x h), ?_⟩
  · refine (ids_revAppend k g).nodup_iff.mpr ?_
    have := H.nd
    simp only [ids, List.nodup_cons] at this
    exact this.2
  · intro p hp
    have := H.chain p (hm' p hp)
    rcases hm p hp with w | w
    · rwa [kidsOf_revAppend_left hc.2.2.1 g (hc.2.2.2.2 p w), ← kidsOf_left H.nd w]
    · rwa [kidsOf_revAppend_right (fun w' => hc.2.2.2.2 p w' w), ← kidsOf_right H.nd w]

theorem Hung.kids {t : T α} {i v k g} (H : Hung t (.cons i v k g)) : Hung t k := by
  have hc := nodup_cons H.nd
  have hm : ∀ x, x ∈ ids k → x ∈ ids (Forest.cons i v k g) := fun x h => by simp [ids, h]
  exact ⟨hc.2.2.1, fun h => H.zero (hm 0 h), fun x h => H.lt x (hm x h), fun p h => by
    rw [← kidsOf_left H.nd h]; exact H.chain p (hm p h)⟩

theorem Hung.rest {t : T α} {i v k g} (H : Hung t (.cons i v k g)) : Hung t g := by
  have hc := nodup_cons H.nd
  have hm : ∀ x, x ∈ ids g → x ∈ ids (Forest.cons i v k g) := fun x h => by simp [ids, h]
  exact ⟨hc.2.2.2.1, fun h => H.zero (hm 0 h), fun x h => H.lt x (hm x h), fun p h => by
    rw [← kidsOf_right H.nd h]; exact H.chain p (hm p h)⟩

theorem Hung.head {t : T α} {i v k g} (H : Hung t (.cons i v k g)) : Hung t (.cons i v k .nil) := by
  have hc := nodup_cons H.nd
  have hm : ∀ x, x ∈ ids (Forest.cons i v k .nil) → x ∈ ids (Forest.cons i v k g) := fun x h => by
    simp [ids] at h ⊢; tauto
  have nd : (ids (Forest.cons i v k .nil)).Nodup := by simp [ids, hc.1, hc.2.2.1]
  refine ⟨nd, fun h => H.zero (hm 0 h), fun x h => H.lt x (hm x h), fun p h => ?_⟩
  simp only [ids, List.append_nil, List.mem_cons] at h
  rcases h with rfl | h
  · rw [kidsOf_self, ← kidsOf_self (i := p) (v := v) (s := g)]
    exact H.chain p (by simp [ids])
  · rw [kidsOf_left nd h, ← kidsOf_left H.nd h]
    exact H.chain p (by simp [ids, h])

theorem pushKids_spec {t : T α} {p : Nat} : ∀ (l A : List Nat) (fuel : Nat) (v : List Nat), Chain t p (A ++ l) →
    (∀ x ∈ l, x ≠ 0 ∧ x < t.len) → l.length ≤ fuel → pushKids t fuel (l.headD 0) v = some (l.reverse ++ v) := by
  intro l
  induction l with
  | nil =>
    intro A fuel v _ _ _
    rw [pushKids.eq_def]; dsimp only; rw [List.headD_nil, if_pos rfl]; rfl
  | cons a l ih =>
    intro A fuel v C h hf
    obtain ⟨h1, h2⟩ := h a (by simp)
    cases fuel with
    | zero => simp at hf
    | succ fuel =>
      have hn := C.nx A a l rfl
      rw [pushKids, List.headD_cons, if_neg h1]
      unfold T.rd
      rw [if_pos h2, Option.bind_some, hn, ih (A ++ [a]) fuel (a :: v) (by simpa using C)
        (fun x hx => h x (by simp [hx])) (by simp at hf; omega)]
      simp

theorem len_le_of_lt {t : T α} {l : List Nat} (nd : l.Nodup) (h : ∀ x ∈ l, x < t.len) : l.length ≤ t.len := by
  have := (List.subperm_of_subset nd (fun x hx => List.mem_range.mpr (h x hx))).length_le
  simpa using this

theorem kids_roots {t : T α} {i v k g} (H : Hung t (.cons i v k g)) (w : List Nat) :
    t.child i = (roots k).headD 0 ∧ pushKids t t.len ((roots k).headD 0) w = some ((roots k).reverse ++ w) := by
  have C := H.chain i (by simp [ids])
  rw [kidsOf_self] at C
  have hk := H.kids
  refine ⟨C.head, pushKids_spec (roots k) [] t.len w C ?_ ?_⟩
  · intro x hx
    have := roots_sub k x hx
    exact ⟨by rintro rfl; exact hk.zero this, hk.lt x this⟩
  · have := children_nodup hk.nd 0
    rw [children, if_pos rfl] at this
    exact len_le_of_lt this (fun x hx => hk.lt x (roots_sub k x hx))

theorem sizeLoop_spec {t : T α} : ∀ (fuel : Nat) (g : Forest α), Hung t g → g.size ≤ fuel →
    sizeLoop t fuel (roots g) = some g.size := by
  intro fuel
  induction fuel with
  | zero =>
    intro g H h
    cases g with
    | nil => rfl
    | cons i v k g => simp [Forest.size, ids] at h
  | succ fuel ih =>
    intro g H h
    cases g with
    | nil => rfl
    | cons i v k g =>
      rw [roots, sizeLoop]
      obtain ⟨h1, h2⟩ := kids_roots H (roots g)
      unfold T.rd
      rw [if_pos (H.lt i (by simp [ids])), Option.bind_some, h1, h2, Option.bind_some, ← roots_revAppend]
      have hsz : (revAppend k g).size = k.size + g.size := by
        have := (ids_revAppend k g).length_eq
        simpa [Forest.size] using this
      rw [ih _ H.rev (by rw [hsz]; rw [size_cons] at h; omega), hsz, Option.map_some, size_cons]
      congr 1; omega

theorem Hung.size_le {t : T α} {g} (H : Hung t g) : g.size ≤ t.len := len_le_of_lt H.nd H.lt

theorem rootsSize_spec {t : T α} : ∀ (s : Forest α) (A : List Nat) (fuel : Nat), Hung t s → Chain t 0 (A ++ roots s) →
    s.size ≤ fuel → rootsSize t fuel ((roots s).headD 0) = some s.size := by
  intro s
  induction s with
  | nil =>
    intro A fuel _ _ _
    rw [rootsSize.eq_def]; rfl
  | cons i v k s _ ih =>
    intro A fuel H C hf
    rw [size_cons] at hf
    have hi0 : i ≠ 0 := by rintro rfl; exact H.zero (by simp [ids])
    cases fuel with
    | zero => omega
    | succ fuel =>
      rw [rootsSize, roots, List.headD_cons, if_neg hi0, sizeAt, if_neg hi0]
      have hs := sizeLoop_spec t.len _ H.head H.head.size_le
      rw [roots, roots] at hs
      have hn := C.nx A i (roots s) rfl
      unfold T.rd
      rw [hs, Option.bind_some, if_pos (H.lt i (by simp [ids])), Option.bind_some, hn,
        ih (A ++ [i]) fuel H.rest (by simpa [roots] using C) (by omega), Option.map_some, size_cons, size_cons]
      congr 1

theorem size_rep {t : T α} {f g l} (R : Rep t f g l) : Verif.Model.Tree.size t = some f.size := by
  have C := R.chain 0 (Or.inl rfl)
  rw [children, if_pos rfl] at C
  unfold Verif.Model.Tree.size T.rd
  rw [if_pos R.len, Option.bind_some, C.head]
  exact rootsSize_spec f [] t.len R.fhung C R.fhung.size_le

theorem sizeAt_rep {t : T α} {f g l} (R : Rep t f g l) {x v k} (h : find f x = some (v, k)) :
    sizeAt t x = some (1 + k.size) := by
  have hx : x ∈ ids f := by
    by_contra w
    rw [find_none w] at h
    exact absurd h (by simp)
  have hk := find_kids R.ndf h
  have hperm := (nodes_erase R.ndf h).map Prod.fst
  rw [← ids_eq] at hperm
  have hsub : ∀ y ∈ ids (Forest.cons x v k .nil), y ∈ ids f := by
    intro y hy
    apply hperm.mem_iff.mpr
    simp only [ids, List.append_nil, List.mem_cons, List.map_append, List.map_cons, List.mem_append, ids_eq] at hy ⊢
    exact Or.inl hy
  have nd : (ids (Forest.cons x v k .nil)).Nodup := by
    have := hperm.nodup_iff.mp R.ndf
    rw [List.map_append] at this
    have := (List.nodup_append.mp this).1
    simpa [ids, ids_eq] using this
  have H : Hung t (.cons x v k .nil) := by
    have F := R.fhung
    refine ⟨nd, fun w => F.zero (hsub 0 w), fun y hy => F.lt y (hsub y hy), fun p hp => ?_⟩
    have := F.chain p (hsub p hp)
    simp only [ids, List.append_nil, List.mem_cons] at hp
    rcases hp with rfl | hp
    · rwa [kidsOf_self, ← hk.1]
    · rwa [kidsOf_left nd hp, ← hk.2 p hp]
  have hs := sizeLoop_spec t.len _ H H.size_le
  rw [roots, roots, size_cons] at hs
  rw [sizeAt, if_neg (by rintro rfl; exact R.f0 hx), hs]
  rfl

theorem fresh_eq {f : Forest α} {n : Nat} (hn : n ≠ 0) (h : n ∉ ids f) (hm : ∀ m, 0 < m → m < n → m ∈ ids f) :
    n = fresh f := by
  unfold fresh
  by_cases hs : n ≤ f.size
  · have : ((List.range f.size).map (· + 1)).find? (fun n => n ∉ ids f) = some n := by
      rw [List.find?_eq_some_iff_append]
      refine ⟨by simpa using h, (List.range (n - 1)).map (· + 1),
        (List.range' (n + 1) (f.size - n)), ?_, ?_⟩
      · apply List.ext_getElem?
        intro j
        simp only [List.getElem?_map, List.getElem?_append, List.length_map, List.length_range, List.getElem?_cons]
        by_cases h1 : j < n - 1
        · rw [if_pos h1, List.getElem?_range (by omega), List.getElem?_range h1]
        · rw [if_neg h1]
          by_cases h2 : j - (n - 1) = 0
          · rw [if_pos h2, List.getElem?_range (by omega)]; simp; omega
          · rw [if_neg h2]
            by_cases h3 : j < f.size
            · rw [List.getElem?_range h3, List.getElem?_range' (by omega)]; simp; omega
            · rw [List.getElem?_eq_none (by simp; omega), List.getElem?_eq_none (by simp; omega)]; rfl
      · intro a ha
        obtain ⟨b, hb, rfl⟩ := List.mem_map.mp ha
        have := List.mem_range.mp hb
        simpa using hm (b + 1) (by omega) (by omega)
    rw [this]; rfl
  · have hle : n - 1 ≤ f.size := by
      have hsub : ∀ x ∈ (List.range (n - 1)).map (· + 1), x ∈ ids f := by
        intro x hx
        obtain ⟨b, hb, rfl⟩ := List.mem_map.mp hx
        have := List.mem_range.mp hb
        exact hm _ (by omega) (by omega)
      have nd : ((List.range (n - 1)).map (· + 1)).Nodup := List.Nodup.map (fun a b h => by simpa using h) List.nodup_range
      have := (List.subperm_of_subset nd hsub).length_le
      simpa [Forest.size] using this
    rw [List.find?_eq_none.mpr]
    · simp; omega
    · intro x hx
      obtain ⟨b, hb, rfl⟩ := List.mem_map.mp hx
      have := List.mem_range.mp hb
      simpa using hm (b + 1) (by omega) (by omega)

/-- Insertion. -/
theorem insert_rep {t : T α} {f l} (R : Rep t f .nil l) {p pos} (hp : IsPos f p pos) (v : α) :
    ∃ t' l', Verif.Model.Tree.insert t ⟨p, pos⟩ v = some (t', ⟨p, fresh f⟩) ∧
      Rep t' (Forest.insert p pos (fresh f) v .nil f) .nil l' ∧ t'.len = max t.len (f.size + 2) ∧
      fresh f ≠ 0 ∧ fresh f ∉ ids f := by
  obtain ⟨t1, n, l', e, R1, hn0, hnf, _, hm, hlen⟩ := allocate_spec R v
  have hn : n = fresh f := fresh_eq hn0 hnf (fun m h1 h2 => (hm m h1 h2).resolve_right (by simp [ids]))
  subst hn
  obtain ⟨t2, e2, R2, hl2⟩ := link_rep R1 hp
  refine ⟨t2, l', ?_, R2, ?_, hn0, hnf⟩
  · unfold Verif.Model.Tree.insert
    rw [e, Option.bind_some, e2]; rfl
  · have hl := R.len_eq
    rw [hl2, hlen]
    simp only [Forest.size, ids, List.length_nil] at hl ⊢
    split
    · rename_i h; subst h; simp only [List.length_nil] at hl; omega
    · rename_i h
      have : 0 < l.length := List.length_pos_iff.mpr h
      omega

theorem eraseLoop_spec {f : Forest α} : ∀ (fuel : Nat) (t : T α) (g : Forest α) (l : List Nat), Rep t f g l →
    g.size ≤ fuel → ∃ t' l', eraseLoop fuel t (roots g) = some t' ∧ Rep t' f .nil l' ∧ t'.len = t.len := by
  intro fuel
  induction fuel with
  | zero =>
    intro t g l R h
    cases g with
    | nil => exact ⟨t, l, rfl, R, rfl⟩
    | cons i v k g => simp [Forest.size, ids] at h
  | succ fuel ih =>
    intro t g l R h
    cases g with
    | nil => exact ⟨t, l, rfl, R, rfl⟩
    | cons i v k g =>
      obtain ⟨h1, h2⟩ := kids_roots R.hung (roots g)
      obtain ⟨t1, l1, e1, R1, hl1⟩ := free_spec R
      have hsz : (revAppend k g).size = k.size + g.size := by
        have := (ids_revAppend k g).length_eq
        simpa [Forest.size] using this
      obtain ⟨t2, l2, e2, R2, hl2⟩ := ih t1 _ l1 R1 (by rw [hsz]; rw [size_cons] at h; omega)
      refine ⟨t2, l2, ?_, R2, hl2.trans hl1⟩
      rw [roots, eraseLoop]
      unfold T.rd
      rw [if_pos (R.hung.lt i (by simp [ids])), Option.bind_some, h1, h2, Option.bind_some, e1, Option.bind_some,
        ← roots_revAppend, e2]

/-- The sibling after `x`, 0 if there is none. -/
def nextIn (l : List Nat) (x : Nat) : Nat := (l.drop (l.idxOf x + 1)).headD 0

theorem Rep.next_eq {t : T α} {f g l} (R : Rep t f g l) {p x} (hn : IsNode f p x) :
    t.next x = nextIn (children f p) x := by
  obtain ⟨A, B, e⟩ := List.append_of_mem hn.2
  rw [(R.chain p hn.1).nx A x B e, nextIn, e]
  have hx : x ∉ A := by
    have := children_nodup R.ndf p
    rw [e] at this
    intro w
    exact (List.nodup_append.mp this).2.2 x w x (by simp) rfl
  have hi : (A ++ x :: B).idxOf x = A.length := by
    rw [List.idxOf_append, if_neg hx]; simp
  rw [hi, List.drop_append]
  simp

/-- Erasure. -/
theorem erase_rep {t : T α} {f l} (R : Rep t f .nil l) {p x} (hn : IsNode f p x) :
    ∃ t' l', Verif.Model.Tree.erase t ⟨p, x⟩ = some (t', ⟨p, nextIn (children f p) x⟩) ∧
      Rep t' (Forest.erase x f) .nil l' ∧ t'.len = t.len := by
  have hx := children_sub f p x hn.2
  obtain ⟨v, k, t1, hf, e1, R1, hl1⟩ := unlink_rep R hx
  obtain ⟨t2, l2, e2, R2, hl2⟩ := eraseLoop_spec t1.len t1 _ l R1 R1.hung.size_le
  refine ⟨t2, l2, ?_, R2, hl2.trans hl1⟩
  rw [roots, roots] at e2
  have hx0 : x ≠ 0 := by rintro rfl; exact R.f0 hx
  unfold Verif.Model.Tree.erase T.rd
  dsimp only
  rw [if_neg hx0, if_pos (R.f_lt hx).2, Option.bind_some, e1, Option.bind_some, e2, R.next_eq hn]
  rfl

theorem descendants_cons (i : Nat) (v : α) (k r : Forest α) (s : Nat) :
    descendants (.cons i v k r) s = if s = i then ids k else if s ∈ ids k then descendants k s else descendants r s := by
  unfold descendants
  rw [find]
  by_cases h : s = i
  · rw [if_pos h, if_pos h]
  · rw [if_neg h, if_neg h]
    by_cases h2 : s ∈ ids k
    · obtain ⟨w, c, e⟩ := find_some h2
      rw [if_pos h2, e]; rfl
    · rw [if_neg h2, find_none h2]; rfl

theorem descendants_sub (f : Forest α) (s : Nat) : ∀ x ∈ descendants f s, x ∈ ids f := by
  induction f with
  | nil => intro x hx; exact absurd hx (by simp [descendants, find])
  | cons i v k r hk hr =>
    intro x hx
    rw [descendants_cons] at hx
    simp only [ids, List.mem_cons, List.mem_append]
    split at hx
    · tauto
    · split at hx
      · exact Or.inr (Or.inl (hk x hx))
      · exact Or.inr (Or.inr (hr x hx))

theorem root_not_descendant {f : Forest α} (nd : (ids f).Nodup) {x s : Nat} (hx : x ∈ roots f) : x ∉ descendants f s := by
  induction f with
  | nil => simp [roots] at hx
  | cons i v k r hk hr =>
    obtain ⟨a, b, ndk, ndr, e⟩ := nodup_cons nd
    rw [descendants_cons]
    rw [roots, List.mem_cons] at hx
    intro w
    have hxk : x ∉ ids k := by
      rcases hx with rfl | hx
      · exact a
      · exact fun w => e x w (roots_sub r x hx)
    split at w
    · exact hxk w
    · split at w
      · exact hxk (descendants_sub k s x w)
      · rcases hx with rfl | hx
        · exact b (descendants_sub r s x w)
        · exact hr ndr hx w

theorem kid_descendant {f : Forest α} (nd : (ids f).Nodup) {x p s : Nat} (hx : x ∈ kidsOf f p) :
    x ∈ descendants f s ↔ p = s ∨ p ∈ descendants f s := by
  induction f with
  | nil => simp [kidsOf] at hx
  | cons i v k r hk hr =>
    obtain ⟨a, b, ndk, ndr, e⟩ := nodup_cons nd
    rw [descendants_cons]
    by_cases hpi : p = i
    · subst hpi
      rw [kidsOf_self] at hx
      by_cases hs : s = p
      · subst hs; simp [roots_sub k x hx]
      · rw [if_neg hs]
        split
        · constructor
          · intro w; exact absurd w (root_not_descendant ndk hx)
          · rintro (w | w)
            · exact absurd w.symm hs
            · exact absurd (descendants_sub k s p w) a
        · constructor
          · intro w; exact absurd (descendants_sub r s x w) (e x (roots_sub k x hx))
          · rintro (w | w)
            · exact absurd w.symm hs
            · exact absurd (descendants_sub r s p w) b
    · rw [kidsOf, if_neg hpi, List.mem_append] at hx
      rcases hx with hx | hx
      · have hpk : p ∈ ids k := by
          by_contra w; rw [kidsOf_nil w] at hx; simp at hx
        by_cases hs : s = i
        · rw [if_pos hs]; simp [kidsOf_sub k p x hx, hpk]
        · rw [if_neg hs]
          split
          · exact hk ndk hx
          · rename_i hsk
            constructor
            · intro w; exact absurd (descendants_sub r s x w) (e x (kidsOf_sub k p x hx))
            · rintro (w | w)
              · subst w; exact absurd hpk hsk
              · exact absurd (descendants_sub r s p w) (e p hpk)
      · have hpr : p ∈ ids r := by
          by_contra w; rw [kidsOf_nil w] at hx; simp at hx
        have hxr := kidsOf_sub r p x hx
        by_cases hs : s = i
        · rw [if_pos hs]
          constructor
          · intro w; exact absurd hxr (e x w)
          · rintro (w | w)
            · exact absurd (w.trans hs) hpi
            · exact absurd hpr (e p w)
        · rw [if_neg hs]
          split
          · rename_i hsk
            constructor
            · intro w; exact absurd hxr (e x (descendants_sub k s x w))
            · rintro (w | w)
              · subst w; exact absurd hpr (e p hsk)
              · exact absurd hpr (e p (descendants_sub k s p w))
          · exact hr ndr hx

theorem kid_after {f : Forest α} (nd : (ids f).Nodup) {x p : Nat} (hx : x ∈ kidsOf f p) :
    (ids f).idxOf p < (ids f).idxOf x := by
  induction f with
  | nil => simp [kidsOf] at hx
  | cons i v k r hk hr =>
    obtain ⟨a, b, ndk, ndr, e⟩ := nodup_cons nd
    have hxi : x ≠ i := by
      rintro rfl
      rw [kidsOf] at hx
      split at hx
      · exact a (roots_sub k x hx)
      · rcases List.mem_append.mp hx with w | w
        · exact a (kidsOf_sub k p x w)
        · exact b (kidsOf_sub r p x w)
    rw [ids, List.idxOf_cons_ne _ hxi.symm]
    by_cases hpi : p = i
    · subst hpi; simp
    · rw [List.idxOf_cons_ne _ (Ne.symm hpi)]
      rw [kidsOf, if_neg hpi, List.mem_append] at hx
      rw [List.idxOf_append, List.idxOf_append]
      rcases hx with hx | hx
      · have hpk : p ∈ ids k := by
          by_contra w; rw [kidsOf_nil w] at hx; simp at hx
        rw [if_pos hpk, if_pos (kidsOf_sub k p x hx)]
        have := hk ndk hx
        omega
      · have hpr : p ∈ ids r := by
          by_contra w; rw [kidsOf_nil w] at hx; simp at hx
        have hxr := kidsOf_sub r p x hx
        rw [if_neg (fun w => e p w hpr), if_neg (fun w => e x w hxr)]
        have := hr ndr hx
        omega

/-- Every node is a child of what its parent link says. -/
theorem Rep.isNode {t : T α} {f g l} (R : Rep t f g l) {x} (hx : x ∈ ids f) : IsNode f (t.parent x) x := by
  obtain ⟨v, k, p, A, B, hf, hpar, hp, e1, _⟩ := erase_spec R.ndf R.f0 hx
  have hpf : p = 0 ∨ p ∈ ids f := hp.imp id ids_erase_sub
  have hm : x ∈ children f p := by rw [e1]; simp
  rw [(R.chain p hpf).par x hm]
  exact ⟨hpf, hm⟩

theorem Rep.parent_eq {t : T α} {f g l} (R : Rep t f g l) {p x} (h : IsNode f p x) : t.parent x = p :=
  (R.chain p h.1).par x h.2

theorem Rep.parent? {t : T α} {f g l} (R : Rep t f g l) {x} (hx : x ∈ ids f) : Forest.parent? f x = some (t.parent x) := by
  obtain ⟨v, k, p, A, B, hf, hpar, hp, e1, _⟩ := erase_spec R.ndf R.f0 hx
  have hpf : p = 0 ∨ p ∈ ids f := hp.imp id ids_erase_sub
  rw [hpar, R.parent_eq ⟨hpf, by rw [e1]; simp⟩]

theorem isAncestor_spec {t : T α} {f g l} (R : Rep t f g l) {s : Nat} (hs : s ∈ ids f) : ∀ (fuel i : Nat),
    i ∈ ids f → (ids f).idxOf i < fuel → isAncestor t s fuel i = some (decide (inside f s i)) := by
  intro fuel
  induction fuel with
  | zero => intro i _ h; omega
  | succ fuel ih =>
    intro i hi hf
    have hi0 : i ≠ 0 := by rintro rfl; exact R.f0 hi
    rw [isAncestor, if_neg hi0]
    by_cases his : i = s
    · rw [if_pos his]; simp [inside, his]
    · rw [if_neg his]
      unfold T.rd
      rw [if_pos (R.f_lt hi).2, Option.bind_some]
      have hN := R.isNode hi
      by_cases hp : t.parent i = 0
      · rw [hp]
        have hr := hN.2
        rw [hp, children, if_pos rfl] at hr
        have hni : ¬ inside f s i := by
          rintro (w | w)
          · exact his w
          · exact root_not_descendant R.ndf hr w
        rw [decide_eq_false hni, isAncestor.eq_def]
        rfl
      · have hk := hN.2
        rw [children, if_neg hp] at hk
        have := kid_after R.ndf hk
        rw [ih _ (hN.1.resolve_left hp) (by omega)]
        have h2 := kid_descendant R.ndf (s := s) hk
        have : inside f s i ↔ inside f s (t.parent i) := by
          unfold inside
          rw [h2]
          simp [his]
        rw [decide_eq_decide.mpr this]

theorem isAncestor_rep {t : T α} {f g l} (R : Rep t f g l) {s i : Nat} (hs : s ∈ ids f) (hi : i = 0 ∨ i ∈ ids f) :
    isAncestor t s t.len i = some (decide (inside f s i)) := by
  rcases hi with rfl | hi
  · have : ¬ inside f s 0 := by
      rintro (w | w)
      · exact R.f0 (w ▸ hs)
      · exact R.f0 (descendants_sub f s 0 w)
    rw [decide_eq_false this, isAncestor.eq_def]
    rfl
  · apply isAncestor_spec R hs _ _ hi
    have h1 := List.idxOf_lt_length_of_mem hi
    have h2 : (ids f).length ≤ t.len := R.fhung.size_le
    omega

/-- Moving to a position inside the moved tree that has a node throws. -/
theorem move_throws {t : T α} {f l} (R : Rep t f .nil l) {p pos q x} (hp : IsPos f p pos) (hn : IsNode f q x)
    (h : inside f x pos) : Verif.Model.Tree.move t ⟨p, pos⟩ ⟨q, x⟩ = some .throws := by
  have hx := children_sub f q x hn.2
  unfold Verif.Model.Tree.move
  dsimp only
  rw [isAncestor_rep R hx (hp.2.imp id (children_sub f p pos)), Option.bind_some, decide_eq_true h]
  rfl

/-- Moving to a position outside the moved tree. -/
theorem move_rep {t : T α} {f l} (R : Rep t f .nil l) {p pos q x} (hp : IsPos f p pos) (hn : IsNode f q x)
    (h : ¬ inside f x p) (h' : ¬ inside f x pos) :
    ∃ t', Verif.Model.Tree.move t ⟨p, pos⟩ ⟨q, x⟩ = some (.ok (t', ⟨p, x⟩)) ∧
      Rep t' (Forest.move p pos x f) .nil l ∧ t'.len = t.len := by
  have hx := children_sub f q x hn.2
  obtain ⟨v, k, t1, hf, e1, R1, hl1⟩ := unlink_rep R hx
  obtain ⟨v', k', p', A, B, hf', _, hp', c1, c2, c3, c4, c5, hperm⟩ := erase_spec R.ndf R.f0 hx
  rw [hf] at hf'
  obtain ⟨rfl, rfl⟩ : v = v' ∧ k = k' := by simpa using hf'
  have hd : descendants f x = ids k := by unfold descendants; rw [hf]
  have hids : (ids f).Perm (x :: ids k ++ ids (Forest.erase x f)) := by
    have := hperm.map Prod.fst
    simpa [ids_eq] using this
  have hpe : p = 0 ∨ p ∈ ids (Forest.erase x f) := by
    refine hp.1.imp id fun w => ?_
    have := hids.mem_iff.mp w
    simp only [List.mem_append, List.mem_cons] at this
    unfold inside at h
    rw [hd] at h
    tauto
  have hpos : IsPos (Forest.erase x f) p pos := by
    refine ⟨hpe, hp.2.imp id fun w => ?_⟩
    by_cases hpp : p = p'
    · subst hpp
      rw [c1] at w
      rw [c2]
      simp only [List.mem_append, List.mem_cons] at w ⊢
      unfold inside at h'
      tauto
    · rwa [c3 p hpp hpe]
  obtain ⟨t2, e2, R2, hl2⟩ := link_rep R1 hpos
  refine ⟨t2, ?_, ?_, hl2.trans hl1⟩
  · unfold Verif.Model.Tree.move
    dsimp only
    rw [isAncestor_rep R hx (hp.2.imp id (children_sub f p pos)), Option.bind_some, decide_eq_false h', if_neg (by simp),
      e1, Option.bind_some, e2]
    rfl
  · unfold Forest.move
    rw [if_neg (by tauto), hf]
    exact R2

theorem top_roots (f : Forest α) : (top f).map Prod.fst = roots f := by
  induction f with
  | nil => rfl
  | cons i v k s _ hs => simp [top, roots, hs]

theorem top_sub (f : Forest α) : ∀ e ∈ top f, e ∈ nodes f := by
  induction f with
  | nil => simp [top]
  | cons i v k s _ hs =>
    intro e he
    simp only [top, nodes, List.mem_cons, List.mem_append] at he ⊢
    rcases he with w | w
    · exact Or.inl w
    · exact Or.inr (Or.inr (hs e w))

theorem find_nodes {f : Forest α} {x v k} (h : find f x = some (v, k)) : (x, v) ∈ nodes f ∧ ∀ e ∈ nodes k, e ∈ nodes f := by
  induction f with
  | nil => simp [find] at h
  | cons i w c s hc hs =>
    rw [find] at h
    simp only [nodes, List.mem_cons, List.mem_append]
    split at h
    · rename_i hi
      obtain ⟨rfl, rfl⟩ : w = v ∧ c = k := by simpa using h
      subst hi
      exact ⟨Or.inl rfl, fun e he => Or.inr (Or.inl he)⟩
    · rcases Option.or_eq_some_iff.mp h with h | ⟨_, h⟩
      · exact ⟨Or.inr (Or.inl (hc h).1), fun e he => Or.inr (Or.inl ((hc h).2 e he))⟩
      · exact ⟨Or.inr (Or.inr (hs h).1), fun e he => Or.inr (Or.inr ((hs h).2 e he))⟩

theorem under_spec {f : Forest α} (nd : (ids f).Nodup) (p : Nat) :
    roots (under f p) = children f p ∧ ∀ e ∈ top (under f p), e ∈ nodes f := by
  unfold under children
  by_cases h : p = 0
  · rw [if_pos h, if_pos h]; exact ⟨rfl, top_sub f⟩
  · rw [if_neg h, if_neg h]
    by_cases hp : p ∈ ids f
    · obtain ⟨v, k, e⟩ := find_some hp
      rw [e]
      exact ⟨(find_kids nd e).1.symm, fun e' he => (find_nodes e).2 e' (top_sub k e' he)⟩
    · rw [find_none hp, kidsOf_nil hp]
      exact ⟨rfl, by simp [top]⟩

end Verif.Proof.Tree
