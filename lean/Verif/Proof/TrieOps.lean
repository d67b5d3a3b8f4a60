import Verif.Proof.TrieAdd

/-!
Queries, `free` and value writes of the trie heap, in terms of the stored tree.
-/
namespace Verif.Proof.Trie
open Verif.Model.Trie

theorem Inv.check_lt {h F} (I : Inv h F) {i} (h0 : i < h.len) : h.check i < h.len := by
  by_cases q : i = 0 ∨ F i
  · have := I.fl.le0 q; have := I.fl.pos; omega
  · by_cases i1 : i = 1
    · subst i1; rw [I.root]; have := I.fl.pos; omega
    · have hi : 2 ≤ i := by
        have : i ≠ 0 := fun w => q (Or.inl w)
        omega
      obtain ⟨p, b, u, c, _⟩ := I.par i hi h0 (fun w => q (Or.inr w))
      have := u.lt I.fl
      omega

theorem at_spec {h F} (I : Inv h F) {p l} (u : Used h F p) (hl : l ≤ 256) :
    at_ h p l = some ((child h p l).getD 0) := by
  have hp := u.lt I.fl
  unfold at_ child nullValue
  rw [if_pos ⟨hp.1, hp.2, hl⟩]
  by_cases hb : 1 ≤ h.base p
  · simp only [hb, if_true, true_and]
    by_cases hx : (h.base p).toNat + l < h.len
    · rw [if_pos hx]
      by_cases hc : h.check ((h.base p).toNat + l) = (p : Int)
      · rw [if_neg (fun w => w hc), if_pos ⟨hl, hx, hc⟩]; rfl
      · rw [if_pos hc, if_neg (fun w => hc w.2.2)]; rfl
    · rw [if_neg hx, if_pos (by omega), if_neg (fun w => hx w.2.1)]; rfl
  · simp [hb]

theorem hasNull_spec {h F} (I : Inv h F) {p} (u : Used h F p) :
    hasNull h p = some (child h p 256).isSome := by
  have hp := u.lt I.fl
  have := I.bl p u
  unfold hasNull child nullValue
  rw [if_pos ⟨hp.1, hp.2, this⟩]
  by_cases hb : 1 ≤ h.base p
  · simp only [hb, if_true, true_and, Nat.le_refl]
    by_cases hx : (h.base p).toNat + 256 < h.len ∧ h.check ((h.base p).toNat + 256) = (p : Int)
    · rw [if_pos hx, decide_eq_true hx]; rfl
    · rw [if_neg hx, decide_eq_false hx]; rfl
  · simp [hb]

theorem isTail_spec {h F} (I : Inv h F) {p} (u : Used h F p) :
    ∃ r, isTail h p = some r ∧ (r = true ↔ (h.base p ≤ 0 ∧ p ≠ 1) ∨ (child h p 256).isSome = true) := by
  have hp := u.lt I.fl
  unfold isTail
  rw [if_pos ⟨hp.1, hp.2⟩]
  refine ⟨_, rfl, ?_⟩
  rw [decide_eq_true_iff]
  unfold nullValue child
  constructor
  · rintro (q | q)
    · exact Or.inl q
    · right; rw [if_pos ⟨q.1, Nat.le_refl _, q.2.1, q.2.2⟩]; rfl
  · rintro (q | q)
    · exact Or.inl q
    · right
      split at q
      · rename_i c; exact ⟨c.1, c.2.2.1, c.2.2.2⟩
      · simp at q

theorem scan_spec {h : Heap} (hc : ∀ i, i < h.len → h.check i < h.len) (parent skip : Nat) : ∀ n i,
    i + n ≤ h.len → ∃ r, scan h parent skip n i = some r ∧
      (r = true ↔ ∃ j, i ≤ j ∧ j < i + n ∧ h.check j = (parent : Int) ∧ j ≠ skip) := by
  intro n
  induction n with
  | zero => intro i _; exact ⟨false, rfl, by simp; omega⟩
  | succ n ih =>
    intro i hl
    have hi : i < h.len := by omega
    simp only [scan, rdC, if_pos hi, Option.bind_some, if_pos (hc i hi)]
    by_cases q : h.check i = (parent : Int) ∧ i ≠ skip
    · rw [if_pos q]
      exact ⟨true, rfl, by simp only [true_iff]; exact ⟨i, by omega, by omega, q.1, q.2⟩⟩
    · rw [if_neg q]
      obtain ⟨r, e, hr⟩ := ih (i + 1) (by omega)
      refine ⟨r, e, hr.trans ?_⟩
      constructor
      · rintro ⟨j, a, b, c⟩; exact ⟨j, by omega, by omega, c⟩
      · rintro ⟨j, a, b, c⟩
        have : j ≠ i := by rintro rfl; exact q c
        exact ⟨j, by omega, by omega, c⟩

theorem scan_child {h F} (I : Inv h F) {p : Nat} (u : Used h F p) (skip : Nat) (hb : 1 ≤ h.base p) :
    ∃ r, scan h p skip (min ((h.base p).toNat + nullValue) h.len - (h.base p).toNat)
        (h.base p).toNat = some r ∧
      (r = true ↔ ∃ l j, l < 256 ∧ child h p l = some j ∧ j ≠ skip) := by
  have hp := u.lt I.fl
  have hbl := I.bl p u
  obtain ⟨b, eb⟩ : ∃ b : Nat, h.base p = b := ⟨(h.base p).toNat, by omega⟩
  rw [eb]
  simp only [Int.toNat_natCast]
  unfold nullValue
  obtain ⟨r, e, hr⟩ := scan_spec (fun i hi => I.check_lt hi) p skip (min (b + 256) h.len - b) b (by omega)
  refine ⟨r, e, hr.trans ?_⟩
  constructor
  · rintro ⟨j, a1, a2, a3, a4⟩
    refine ⟨j - b, j, by omega, child_eq_some.mpr ⟨b, eb, by omega, by omega, by omega, ?_, by omega⟩, a4⟩
    have : b + (j - b) = j := by omega
    rw [this]; exact a3
  · rintro ⟨l, j, hl, hc, hs⟩
    obtain ⟨b', e1, _, _, q1, q2, rfl⟩ := child_eq_some.mp hc
    have : b' = b := by omega
    subst this
    exact ⟨b' + l, by omega, by omega, q2, hs⟩

theorem hasChild_spec {h F} (I : Inv h F) {p} (u : Used h F p) :
    ∃ r, hasChild h p = some r ∧ (r = true ↔ ∃ l, l < 256 ∧ (child h p l).isSome = true) := by
  have hp := u.lt I.fl
  have hbl := I.bl p u
  unfold hasChild
  rw [if_pos ⟨hp.1, hp.2, hbl⟩]
  by_cases hb : 1 ≤ h.base p
  · simp only [hb, if_true]
    obtain ⟨r, e, hr⟩ := scan_child I u 0 hb
    refine ⟨r, e, hr.trans ?_⟩
    constructor
    · rintro ⟨l, j, hl, hc, _⟩; exact ⟨l, hl, by rw [hc]; rfl⟩
    · rintro ⟨l, hl, hc⟩
      obtain ⟨j, hj⟩ := Option.isSome_iff_exists.mp hc
      exact ⟨l, j, hl, hj, by have := (I.child_used u hj).2.1; omega⟩
  · refine ⟨false, by simp [hb], ?_⟩
    simp only [Bool.false_eq_true, false_iff]
    rintro ⟨l, _, hc⟩
    unfold child at hc
    rw [if_neg (fun w => hb w.1)] at hc
    simp at hc

theorem hasSibling_spec {h F} (I : Inv h F) {p l i} (u : Used h F p) (hi : child h p l = some i) :
    ∃ r, hasSibling h i = some r ∧
      (r = true ↔ ∃ m, m < 256 ∧ m ≠ l ∧ (child h p m).isSome = true) := by
  obtain ⟨ui, i2, ci⟩ := I.child_used u hi
  have hil := ui.lt I.fl
  have hp := u.lt I.fl
  have hbl := I.bl p u
  have hb : 1 ≤ h.base p := by
    obtain ⟨b, e, b1, _⟩ := child_eq_some.mp hi; omega
  unfold hasSibling
  rw [if_pos hil.2, if_neg (by omega)]
  simp only [ci, Int.toNat_natCast]
  rw [if_pos (by omega), if_pos ⟨hb, hbl⟩]
  obtain ⟨r, e, hr⟩ := scan_child I u i hb
  refine ⟨r, e, hr.trans ?_⟩
  constructor
  · rintro ⟨m, j, hm, hc, hs⟩
    refine ⟨m, hm, ?_, by rw [hc]; rfl⟩
    rintro rfl
    rw [hi] at hc; simp at hc; exact hs hc.symm
  · rintro ⟨m, hm, hne, hc⟩
    obtain ⟨j, hj⟩ := Option.isSome_iff_exists.mp hc
    refine ⟨m, j, hm, hj, ?_⟩
    rintro rfl
    exact hne (I.child_inj hj hi)

theorem child_isSome_tr {h p s l} (hw : walk h 1 s = some p) :
    (child h p l).isSome = true ↔ tr h (s ++ [l]) ≠ none := by
  unfold tr
  rw [walk_snoc, hw]
  simp only [Option.bind_some, ne_eq, Option.map_eq_none_iff]
  cases child h p l <;> simp

theorem tr_of_walk {h s i} (hw : walk h 1 s = some i) : tr h s = some (kind h i) := by
  simp [tr, hw]

theorem tr_ne_none {h s} (ht : tr h s ≠ none) : ∃ i, walk h 1 s = some i := by
  unfold tr at ht
  cases hw : walk h 1 s with
  | none => simp [hw] at ht
  | some i => exact ⟨i, rfl⟩

/-- A node with transitions present is not a leaf; strings below a missing node are missing. -/
theorem tr_none_append {h s t} (ht : tr h s = none) : tr h (s ++ t) = none := by
  unfold tr at *
  rw [walk_append]
  cases hw : walk h 1 s with
  | none => rfl
  | some i => simp [hw] at ht

theorem tr_leaf_child {h s l v} (ht : tr h s = some (.leaf v)) : tr h (s ++ [l]) = none := by
  obtain ⟨i, hi⟩ := tr_ne_none (h := h) (s := s) (by rw [ht]; simp)
  rw [tr_of_walk hi] at ht
  unfold tr
  rw [walk_snoc, hi]
  have hb : ¬ 1 ≤ h.base i := by
    intro q; simp [kind, q] at ht
  simp [child, hb]

theorem free_spec {h F} (I : Inv h F) {i q} (hw : walk h 1 q = some i) (h2 : 2 ≤ i)
    (hno : ∀ l, child h i l = none) :
    ∃ h' b, freeOne h i = some (h', b) ∧ Inv h' (fun j => F j ∨ j = i) ∧ h'.base 0 = h.base 0 ∧
      (∀ j, j ≠ i → h'.base j = h.base j) ∧
      (∀ s, walk h' 1 s = if s = q then none else walk h 1 s) ∧
      (∀ s, tr h' s = if s = q then none else tr h s) := by
  have ui := I.root_used hw
  have hil := ui.lt I.fl
  obtain ⟨h', b, e, H', _, _, l', b', c'⟩ := freeOne_spec I.fl (ui.nf I.fl) h2 hil.2 (Or.inl rfl) (by omega)
  have bo : ∀ j, j ≠ i → h'.base j = h.base j := by
    intro j hj; rw [b', upd, if_neg hj]
  have bi : h'.base i = 0 := by rw [b', upd, if_pos rfl]
  have uold : ∀ j, Used h' (fun j => F j ∨ j = i) j → Used h F j ∧ j ≠ i := by
    rintro j (w | ⟨w1, w2, w3⟩)
    · exact ⟨Or.inl w, by omega⟩
    · exact ⟨Or.inr ⟨w1, by omega, fun v => w3 (Or.inl v)⟩, fun v => w3 (Or.inr v)⟩
  have unew : ∀ j, Used h F j → j ≠ i → Used h' (fun j => F j ∨ j = i) j := by
    rintro j (w | ⟨w1, w2, w3⟩) hne
    · exact Or.inl w
    · exact Or.inr ⟨w1, by omega, by rintro (v | v); exacts [w3 v, hne v]⟩
  have co : ∀ j, Used h F j → j ≠ i → h'.check j = h.check j := by
    intro j u hj
    have := u.lt I.fl
    exact c' j (by omega) (u.nf I.fl) hj
  have hch : ∀ j l, Used h F j → j ≠ i →
      child h' j l = if child h j l = some i then none else child h j l := by
    intro j l u hj
    cases hc : child h j l with
    | some k =>
      have uk := I.child_used u hc
      by_cases hk : k = i
      · subst hk
        rw [if_pos rfl]
        cases hc' : child h' j l with
        | none => rfl
        | some k2 =>
          exfalso
          obtain ⟨d, e1, _, _, _, q2, rfl⟩ := child_eq_some.mp hc'
          obtain ⟨d', e1', _, _, _, _, rfl⟩ := child_eq_some.mp hc
          rw [bo j hj] at e1
          have hdd : d = d' := by omega
          subst hdd
          have := H'.le0 (i := d + l) (Or.inr (Or.inr rfl))
          have := (u.lt I.fl).1
          omega
      · rw [if_neg (by simpa using hk)]
        obtain ⟨d, e1, p1, p2, p3, p4, rfl⟩ := child_eq_some.mp hc
        refine child_eq_some.mpr ⟨d, by rw [bo j hj]; exact e1, p1, p2, by omega, ?_, rfl⟩
        rw [co _ uk.1 hk]; exact p4
    | none =>
      rw [if_neg (by simp)]
      cases hc' : child h' j l with
      | none => rfl
      | some k2 =>
        exfalso
        obtain ⟨d, e1, p1, p2, p3, p4, rfl⟩ := child_eq_some.mp hc'
        rw [bo j hj] at e1
        have := (u.lt I.fl).1
        have nf : ¬ (F (d + l) ∨ d + l = i) := by
          intro w; have := H'.le0 (i := d + l) (Or.inr w); omega
        have k1 : d + l ≠ 1 := by
          intro w
          rw [w, co 1 (used_one h F) (by omega), I.root] at p4; omega
        have uk : Used h F (d + l) := Or.inr ⟨by omega, by omega, fun w => nf (Or.inl w)⟩
        rw [co _ uk (fun w => nf (Or.inr w))] at p4
        have := child_eq_some.mpr ⟨d, e1, p1, p2, by omega, p4, rfl⟩
        rw [hc] at this; simp at this
  have hno' : ∀ l, child h' i l = none := by
    intro l; unfold child; rw [if_neg (by omega)]
  have wk : ∀ n s, s.length = n → walk h' 1 s = if walk h 1 s = some i then none else walk h 1 s := by
    intro n
    induction n with
    | zero =>
      intro s hn
      have : s = [] := List.length_eq_zero_iff.mp hn
      subst this
      rw [if_neg]
      · rfl
      · show some 1 ≠ some i
        simp; omega
    | succ n ih =>
      intro s hn
      rcases List.eq_nil_or_concat s with rfl | ⟨s', l, rfl⟩
      · simp at hn
      · simp only [List.concat_eq_append] at *
        rw [walk_snoc, walk_snoc, ih s' (by simpa using hn)]
        cases hw : walk h 1 s' with
        | none => simp
        | some j =>
          by_cases hj : j = i
          · subst hj; simp [hno]
          · rw [if_neg (by simpa using hj)]
            simp only [Option.bind_some]
            exact hch j l (I.root_used hw) hj
  have wk' : ∀ s, walk h' 1 s = if s = q then none else walk h 1 s := by
    intro s
    rw [wk _ s rfl]
    by_cases hs : s = q
    · subst hs; rw [if_pos hw, if_pos rfl]
    · rw [if_neg (fun w => hs (I.walk_inj w hw)), if_neg hs]
  refine ⟨h', b, e, ⟨H', ?_, ?_, ?_, ?_, ?_⟩, bo 0 (by omega), bo, wk', ?_⟩
  · rw [co 1 (used_one h F) (by omega)]; exact I.root
  · rintro j (w | w)
    · by_cases hj : j = i
      · rw [hj]; exact bi
      · rw [bo j hj]; exact I.fb j w
    · rw [w]; exact bi
  · intro j j2 jl nf
    obtain ⟨uj, hj⟩ := uold j (Or.inr ⟨j2, jl, nf⟩)
    obtain ⟨p, l, up, hc, hcp⟩ := I.par_child uj j2
    have hpi : p ≠ i := by
      rintro rfl; rw [hno] at hcp; simp at hcp
    obtain ⟨d, e1, p1, p2, p3, p4, rfl⟩ := child_eq_some.mp hcp
    exact ⟨p, d, unew p up hpi, by rw [co _ uj hj]; exact hc, by rw [bo p hpi]; exact e1, p1, by omega, by omega⟩
  · intro j u
    obtain ⟨uj, hj⟩ := uold j u
    rw [bo j hj, l']; exact I.bl j uj
  · intro j u
    obtain ⟨uj, hj⟩ := uold j u
    obtain ⟨s, hs⟩ := I.reach j uj
    refine ⟨s, ?_⟩
    rw [wk', if_neg, hs]
    rintro rfl
    rw [hs] at hw; simp at hw; exact hj hw
  · intro s
    unfold tr
    rw [wk']
    by_cases hs : s = q
    · rw [if_pos hs, if_pos hs]; rfl
    · rw [if_neg hs, if_neg hs]
      cases hws : walk h 1 s with
      | none => rfl
      | some j =>
        have : j ≠ i := by
          rintro rfl; exact hs (I.walk_inj hws hw)
        simp [kind, bo j this]

/-- Writing a value to a node without transitions. -/
theorem setB_spec {h F} (I : Inv h F) {i q} (hw : walk h 1 q = some i) {v : Int} (hv : v ≤ 0)
    (hno : ∀ l, child h i l = none) :
    ∃ h', wrB h i v = some h' ∧ Inv h' F ∧ h'.base 0 = h.base 0 ∧
      (∀ s, walk h' 1 s = walk h 1 s) ∧
      (∀ s, tr h' s = if s = q then some (.leaf (-v)) else tr h s) := by
  have ui := I.root_used hw
  have hil := ui.lt I.fl
  let h' : Heap := { h with base := upd h.base i v }
  have bo : ∀ j, j ≠ i → h'.base j = h.base j := by
    intro j hj; show upd _ _ _ _ = _; rw [upd, if_neg hj]
  have bi : h'.base i = v := by show upd _ _ _ _ = _; rw [upd, if_pos rfl]
  have hch : ∀ j l, child h' j l = child h j l := by
    intro j l
    by_cases hj : j = i
    · subst hj
      rw [hno]; unfold child; rw [if_neg (by omega)]
    · unfold child; rw [bo j hj]
  have wk : ∀ s j, walk h' j s = walk h j s := by
    intro s
    induction s with
    | nil => intro j; rfl
    | cons a s ih => intro j; simp only [walk, hch]; congr 1; funext k; exact ih k
  refine ⟨h', by simp [wrB, hil.2, h'], ⟨I.fl.frame rfl (fun _ _ => rfl), I.root, ?_, ?_, ?_, ?_⟩,
    bo 0 (by omega), fun s => wk s 1, ?_⟩
  · intro j hj
    rw [bo j (by rintro rfl; exact ui.nf I.fl hj)]; exact I.fb j hj
  · intro j j2 jl nf
    obtain ⟨p, l, up, hc, hcp⟩ := I.par_child (Or.inr ⟨j2, jl, nf⟩) j2
    have hpi : p ≠ i := by
      rintro rfl; rw [hno] at hcp; simp at hcp
    obtain ⟨d, e1, p1, p2, p3, p4, rfl⟩ := child_eq_some.mp hcp
    exact ⟨p, d, up, hc, by rw [bo p hpi]; exact e1, p1, by omega, by omega⟩
  · intro j u
    by_cases hj : j = i
    · rw [hj, bi]; show _ < (h.len : Int); omega
    · rw [bo j hj]; exact I.bl j u
  · intro j u
    obtain ⟨s, hs⟩ := I.reach j u
    exact ⟨s, by rw [wk]; exact hs⟩
  · intro s
    unfold tr
    rw [wk]
    by_cases hs : s = q
    · subst hs
      rw [if_pos rfl, hw]
      have : ¬ 1 ≤ v := by omega
      simp [kind, bi, this]
    · rw [if_neg hs]
      cases hws : walk h 1 s with
      | none => rfl
      | some j =>
        have : j ≠ i := by
          rintro rfl; exact hs (I.walk_inj hws hw)
        simp [kind, bo j this]

/-- Writing the key counter in node 0. -/
theorem setSize_spec {h F} (I : Inv h F) (v : Int) :
    ∃ h', wrB h 0 v = some h' ∧ Inv h' F ∧ h'.base 0 = v ∧ (∀ s, walk h' 1 s = walk h 1 s) ∧
      (∀ s, tr h' s = tr h s) := by
  have hp := I.fl.pos
  let h' : Heap := { h with base := upd h.base 0 v }
  have bo : ∀ j, j ≠ 0 → h'.base j = h.base j := by
    intro j hj; show upd _ _ _ _ = _; rw [upd, if_neg hj]
  have hch : ∀ j l, j ≠ 0 → child h' j l = child h j l := by
    intro j l hj; unfold child; rw [bo j hj]
  have hu : ∀ j, Used h F j → j ≠ 0 := by intro j u; have := u.lt I.fl; omega
  have wk : ∀ s j, Used h F j → walk h' j s = walk h j s := by
    intro s
    induction s with
    | nil => intro j _; rfl
    | cons a s ih =>
      intro j u
      simp only [walk, hch j a (hu j u)]
      cases hc : child h j a with
      | none => rfl
      | some k => exact ih k (I.child_used u hc).1
  have u1 := used_one h F
  refine ⟨h', by have : 0 < h.len := by omega
                 simp [wrB, this, h'], ⟨I.fl.frame rfl (fun _ _ => rfl), I.root, ?_, ?_, ?_, ?_⟩,
    by simp [h', upd], fun s => wk s 1 u1, ?_⟩
  · intro j hj
    rw [bo j (by have := I.fl.rng j hj; omega)]; exact I.fb j hj
  · intro j j2 jl nf
    obtain ⟨p, b, u, c, e, r⟩ := I.par j j2 jl nf
    exact ⟨p, b, u, c, by rw [bo p (hu p u)]; exact e, r⟩
  · intro j u; rw [bo j (hu j u)]; exact I.bl j u
  · intro j u
    obtain ⟨s, hs⟩ := I.reach j u
    exact ⟨s, by rw [wk s 1 u1]; exact hs⟩
  · intro s
    unfold tr
    rw [wk s 1 u1]
    cases hws : walk h 1 s with
    | none => rfl
    | some j => simp [kind, bo j (hu j (I.root_used hws))]

theorem inv_empty : Inv Heap.empty (fun _ => False) := by
  refine ⟨⟨Nat.le_refl 2, by simp, ?_⟩, rfl, by simp, ?_, ?_, ?_⟩
  · intro i _; left; exact ⟨rfl, by simp⟩
  · intro i h2 hl _; simp [Heap.empty] at hl; omega
  · intro i _; simp [Heap.empty]
  · intro i u
    have := u.lt (F := fun _ => False) (h := Heap.empty) ⟨Nat.le_refl 2, by simp, fun i _ => Or.inl ⟨rfl, by simp⟩⟩
    have : i = 1 := by simp [Heap.empty] at this; omega
    exact ⟨[], by simp [walk, this]⟩

theorem tr_empty (s : List Nat) : tr Heap.empty s = if s = [] then some (.leaf 0) else none := by
  cases s with
  | nil => rfl
  | cons a s => simp [tr, walk, child, Heap.empty]

end Verif.Proof.Trie
