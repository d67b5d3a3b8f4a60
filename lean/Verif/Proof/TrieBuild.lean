import Verif.Proof.TrieBulk

/-! The loop of the bulk `assign`. -/
namespace Verif.Proof.Trie
open Verif.Spec Verif.Spec.KeyMap Verif.Model.Trie

/-- `p` is a proper prefix of a string of `L`. -/
def ExL (L : List (List Nat)) (p : List Nat) : Prop := ∃ a t, p ++ a :: t ∈ L

/-- `s` is a child of the node `q`, possibly the terminator. -/
def ChildOf (L : List (List Nat)) (q s : List Nat) : Prop :=
  ∃ a, s = q ++ [a] ∧ ((∃ t, q ++ a :: t ∈ L) ∨ (a = 256 ∧ q ∈ L ∧ q ≠ []))

/-- State of the loop: nodes `D` are expanded, nodes `ps` wait. -/
structure Build (L D ps : List (List Nat)) (Q : List LIt) (h : Heap) (F : Nat → Prop) : Prop where
  I : Inv h F
  size : h.base 0 = 0
  repr : List.Forall₂ (Repr L) ps Q
  nd : (D ++ ps).Nodup
  ex : ∀ p ∈ D ++ ps, ExL L p
  inner : ∀ s ∈ D, tr h s = some .inner
  leaf : ∀ s, s ∉ D → (s = [] ∨ ∃ q ∈ D, ChildOf L q s) → tr h s = some (.leaf 0)
  out : ∀ s, s ∉ D → ¬ (s = [] ∨ ∃ q ∈ D, ChildOf L q s) → tr h s = none
  cover : ∀ p, ExL L p → p ∈ D ∨ ∃ r ∈ ps, r <+: p
  par : ∀ p ∈ D ++ ps, p = [] ∨ ∃ q a, p = q ++ [a] ∧ q ∈ D

theorem skipLoop_walk {h F} (I : Inv h F) {s i} (hb : ∀ b ∈ s, b ≤ 256) (hw : walk h 1 s = some i) :
    skipLoop h 1 s = some (i, []) := by
  have gen : ∀ (s : List Nat) (j : Nat), Used h F j → (∀ b ∈ s, b ≤ 256) → walk h j s = some i →
      skipLoop h j s = some (i, []) := by
    intro s
    induction s with
    | nil => intro j _ _ e; simp only [walk, Option.some.injEq] at e; subst e; rfl
    | cons l s ih =>
      intro j u hb e
      simp only [walk] at e
      cases hc : child h j l with
      | none => rw [hc] at e; simp at e
      | some k =>
        rw [hc, Option.bind_some] at e
        obtain ⟨uk, k2, _⟩ := I.child_used u hc
        rw [skipLoop, at_spec I u (hb l (by simp)), hc]
        simp only [Option.getD_some, Option.bind_some]
        rw [if_pos (by omega)]
        exact ih k uk (fun b hb' => hb b (by simp [hb'])) e
  exact gen s 1 (used_one h F) hb hw

theorem Build.step {L D p ps it Q h F} (hL : L.Pairwise lexLt) (hb : ∀ s ∈ L, ∀ b ∈ s, b < 256)
    (B : Build L D (p :: ps) (it :: Q) h F) :
    ∃ ls Q' i h' b F' ps', assignChildren it = some (ls, Q') ∧ ls ≠ [] ∧ it.string = some p ∧
      Base.lookup h p = some (i, []) ∧ i ≠ 0 ∧ add h i ls = some (h', b) ∧
      Build L (p :: D) (ps ++ ps') (Q ++ Q') h' F' := by
  have hr := B.repr
  cases hr with
  | cons hrp hrps =>
  have hex : ExL L p := B.ex p (by simp)
  obtain ⟨a0, t0, h0⟩ := hex
  have hLne : L ≠ [] := by rintro rfl; simp at h0
  obtain ⟨ls, as, Q', e1, s1, m1, s2, m2, f2, str⟩ := assignChildren_spec hL hb hrp (fun _ => ⟨_, h0, ⟨_, rfl⟩⟩)
  have hpD : p ∉ D := by
    have := B.nd
    rw [List.nodup_append] at this
    intro w
    exact this.2.2 p w p (by simp) rfl
  have hpps : p ∉ ps := by
    have := B.nd
    rw [List.nodup_append] at this
    exact (List.nodup_cons.mp this.2.1).1
  have hclosed : ∀ q a, q ++ [a] ∈ D ++ p :: ps → q ∈ D := by
    intro q a hq
    rcases B.par _ hq with w | ⟨q', a', w, hq'⟩
    · simp at w
    · obtain ⟨e, _⟩ := List.append_inj' w rfl
      rw [e]; exact hq'
  have hleafp : tr h p = some (.leaf 0) := by
    apply B.leaf p hpD
    rcases B.par p (by simp) with w | ⟨q, a, w, hq⟩
    · exact Or.inl w
    · refine Or.inr ⟨q, hq, a, w, Or.inl ⟨a0 :: t0, ?_⟩⟩
      rw [w] at h0
      simpa using h0
  obtain ⟨i, hi⟩ := tr_ne_none (h := h) (s := p) (by rw [hleafp]; simp)
  have ui := B.I.root_used hi
  have hbp : ∀ b ∈ p, b ≤ 256 := fun b hb' => Nat.le_of_lt (hb _ h0 b (by simp [hb']))
  have hlook := skipLoop_walk B.I hbp hi
  have hlsne : ls ≠ [] := by
    have := (m1 a0).mpr (Or.inl ⟨t0, h0⟩)
    intro w; rw [w] at this; simp at this
  have h256 : ∀ l ∈ ls, l ≤ 256 := by
    intro l hl
    rcases (m1 l).mp hl with ⟨t, ht⟩ | ⟨w, _⟩
    · exact Nat.le_of_lt (hb _ ht l (by simp))
    · omega
  obtain ⟨h', F', nb, φ, ea, X⟩ := add_spec B.I ui s1 hlsne h256 (by
    intro q
    rw [tr_of_walk hi] at hleafp
    simp [kind, q] at hleafp)
  have htr := X.tr_eq B.I ui hi
  have hmemls : ∀ s, s ∈ ls.map (p ++ [·]) ↔ ChildOf L p s := by
    intro s
    rw [List.mem_map]
    unfold ChildOf
    constructor
    · rintro ⟨a, ha, rfl⟩; exact ⟨a, rfl, (m1 a).mp ha⟩
    · rintro ⟨a, rfl, ha⟩; exact ⟨a, (m1 a).mpr ha, rfl⟩
  have hchild_ne : ∀ q s, ChildOf L q s → s ≠ [] := by
    rintro q s ⟨a, rfl, _⟩; simp
  have hchild_par : ∀ q q' s, ChildOf L q s → ChildOf L q' s → q = q' := by
    rintro q q' s ⟨a, rfl, _⟩ ⟨a', e, _⟩
    exact (List.append_inj' e rfl).1
  have hnoneD : ∀ s, ChildOf L p s → s ∉ D ++ p :: ps := by
    rintro s ⟨a, rfl, _⟩ w
    exact hpD (hclosed p a w)
  have hnone : ∀ s, ChildOf L p s → tr h s = none := by
    intro s hs
    apply B.out s (fun w => hnoneD s hs (by simp [w]))
    rintro (w | ⟨q, hq, w⟩)
    · exact hchild_ne p s hs w
    · rw [hchild_par q p s w hs] at hq; exact hpD hq
  have hneq : ∀ s, ChildOf L p s → s ≠ p := by
    rintro s ⟨a, rfl, _⟩ w
    have := congrArg List.length w
    simp at this
  refine ⟨ls, Q', i, h', nb, F', as.map (p ++ [·]), e1, hlsne, str (Or.inr hLne), hlook, ?_, ea, ?_⟩
  · have := (ui.lt B.I.fl).1; omega
  · refine ⟨X.inv B.I ui, by rw [X.size]; exact B.size, ?_, ?_, ?_, ?_, ?_, ?_, ?_, ?_⟩
    · apply List.rel_append hrps
      rw [List.forall₂_map_left_iff]
      exact f2
    · -- nodup
      have nd := B.nd
      rw [List.cons_append, ← List.append_assoc, ← List.cons_append, List.nodup_append]
      refine ⟨(List.perm_middle.nodup_iff).mp nd, ?_, ?_⟩
      · have : as.Nodup := s2.imp fun h => Nat.ne_of_lt h
        exact this.map (fun x y h => by simpa using h)
      · intro x hx y hy hxy
        subst hxy
        obtain ⟨a, ha, rfl⟩ := List.mem_map.mp hy
        have hch : ChildOf L p (p ++ [a]) := by
          obtain ⟨b, t, hbt⟩ := (m2 a).mp ha
          exact ⟨a, rfl, Or.inl ⟨_, hbt⟩⟩
        apply hnoneD _ hch
        simp only [List.mem_cons, List.mem_append] at hx ⊢
        rcases hx with w | w | w
        · exact Or.inr (Or.inl w)
        · exact Or.inl w
        · exact Or.inr (Or.inr w)
    · intro q hq
      simp only [List.cons_append, List.mem_cons, List.mem_append] at hq
      rcases hq with rfl | w | w | w
      · exact ⟨a0, t0, h0⟩
      · exact B.ex q (by simp [w])
      · exact B.ex q (by simp [w])
      · obtain ⟨a, ha, rfl⟩ := List.mem_map.mp w
        obtain ⟨b, t, hbt⟩ := (m2 a).mp ha
        exact ⟨b, t, by simpa using hbt⟩
    · intro s hs
      rw [htr]
      by_cases e : s = p
      · rw [if_pos e]
      · rw [if_neg e, if_neg, B.inner s (by simpa [e] using hs)]
        rintro ⟨w, _⟩
        rw [B.inner s (by simpa [e] using hs)] at w
        simp at w
    · intro s hs hc
      have hsp : s ≠ p := fun w => hs (by simp [w])
      have hsD : s ∉ D := fun w => hs (by simp [w])
      rw [htr, if_neg hsp]
      by_cases hcp : ChildOf L p s
      · rw [if_pos ⟨hnone s hcp, (hmemls s).mpr hcp⟩]
      · rw [if_neg (fun w => hcp ((hmemls s).mp w.2))]
        apply B.leaf s hsD
        rcases hc with w | ⟨q, hq, w⟩
        · exact Or.inl w
        · rcases List.mem_cons.mp hq with rfl | hq
          · exact absurd w hcp
          · exact Or.inr ⟨q, hq, w⟩
    · intro s hs hc
      have hsp : s ≠ p := fun w => hs (by simp [w])
      have hsD : s ∉ D := fun w => hs (by simp [w])
      have hcp : ¬ ChildOf L p s := fun w => hc (Or.inr ⟨p, by simp, w⟩)
      rw [htr, if_neg hsp, if_neg (fun w => hcp ((hmemls s).mp w.2))]
      apply B.out s hsD
      rintro (w | ⟨q, hq, w⟩)
      · exact hc (Or.inl w)
      · exact hc (Or.inr ⟨q, by simp [hq], w⟩)
    · intro q hq
      rcases B.cover q hq with w | ⟨r, hr, w⟩
      · exact Or.inl (by simp [w])
      · rcases List.mem_cons.mp hr with rfl | hr
        · obtain ⟨u, rfl⟩ := w
          cases u with
          | nil => exact Or.inl (by simp)
          | cons a u =>
            right
            refine ⟨r ++ [a], ?_, ⟨u, by simp⟩⟩
            rw [List.mem_append]
            right
            refine List.mem_map.mpr ⟨a, (m2 a).mpr ?_, rfl⟩
            obtain ⟨b, t, hbt⟩ := hq
            cases u with
            | nil => exact ⟨b, t, by simpa using hbt⟩
            | cons c u => exact ⟨c, u ++ b :: t, by simpa using hbt⟩
        · exact Or.inr ⟨r, by simp [hr], w⟩
    · intro q hq
      simp only [List.cons_append, List.mem_cons, List.mem_append] at hq
      have lift : ∀ q, q ∈ D ++ p :: ps → q = [] ∨ ∃ r a, q = r ++ [a] ∧ r ∈ p :: D := by
        intro q hq
        rcases B.par q hq with w | ⟨r, a, w, hr⟩
        · exact Or.inl w
        · exact Or.inr ⟨r, a, w, by simp [hr]⟩
      rcases hq with rfl | w | w | w
      · exact lift q (by simp)
      · exact lift q (by simp [w])
      · exact lift q (by simp [w])
      · obtain ⟨a, ha, rfl⟩ := List.mem_map.mp w
        exact Or.inr ⟨p, a, rfl, by simp⟩

theorem prefixes_bound {L D : List (List Nat)} (nd : D.Nodup) (ex : ∀ p ∈ D, ExL L p) :
    D.length ≤ (L.map fun k => k.length + 1).sum := by
  have hsub : D ⊆ L.flatMap List.inits := by
    intro p hp
    obtain ⟨a, t, h⟩ := ex p hp
    exact List.mem_flatMap.mpr ⟨_, h, (List.mem_inits _ _).mpr ⟨_, rfl⟩⟩
  have := (List.subperm_of_subset nd hsub).length_le
  rw [List.length_flatMap] at this
  simpa using this

theorem buildLoop_spec {L : List (List Nat)} (hL : L.Pairwise lexLt) (hb : ∀ s ∈ L, ∀ b ∈ s, b < 256) :
    ∀ fuel D ps Q h F, Build L D ps Q h F → (L.map fun k => k.length + 1).sum + 1 ≤ fuel + D.length →
    ∃ h' F' D', buildLoop fuel Q h = some h' ∧ Build L D' [] [] h' F' := by
  intro fuel
  induction fuel with
  | zero =>
    intro D ps Q h F B hf
    have := prefixes_bound (List.nodup_append.mp B.nd).1 (fun p hp => B.ex p (by simp [hp]))
    omega
  | succ fuel ih =>
    intro D ps Q h F B hf
    have hr := B.repr
    cases hr with
    | nil => exact ⟨h, F, D, rfl, B⟩
    | cons h1 h2 =>
      rename_i p it ps Q
      obtain ⟨ls, Q', i, h', b, F', ps', e1, e2, e3, e4, e5, e6, B'⟩ := B.step hL hb
      obtain ⟨h'', F'', D', e, B''⟩ := ih _ _ _ _ _ B' (by simp only [List.length_cons]; omega)
      refine ⟨h'', F'', D', ?_, B''⟩
      rw [buildLoop, e1, Option.bind_some, if_neg e2, e3, Option.bind_some, e4, Option.bind_some]
      dsimp only
      rw [if_neg e5, e6]
      exact e

/-- The map stored by `assign`. -/
def zeros (L : List (List Nat)) : KMap := (L.filter (· ≠ [])).map fun k => (k, 0)

theorem mem_zeros {L k v} : (k, v) ∈ zeros L ↔ k ∈ L ∧ k ≠ [] ∧ v = 0 := by
  unfold zeros
  rw [List.mem_map]
  constructor
  · rintro ⟨k', hk, e⟩
    rw [List.mem_filter, decide_eq_true_iff] at hk
    simp only [Prod.mk.injEq] at e
    exact ⟨e.1 ▸ hk.1, e.1 ▸ hk.2, e.2.symm⟩
  · rintro ⟨a, b, rfl⟩
    exact ⟨k, List.mem_filter.mpr ⟨a, by simpa using b⟩, rfl⟩

theorem ex_zeros {L p} : Ex (zeros L) p ↔ ExL L p := by
  unfold Ex ExL
  constructor
  · rintro ⟨k, v, hm, ⟨t, rfl⟩, hne⟩
    cases t with
    | nil => simp at hne
    | cons a t => exact ⟨a, t, (mem_zeros.mp hm).1⟩
  · rintro ⟨a, t, h⟩
    exact ⟨_, 0, mem_zeros.mpr ⟨h, by simp, rfl⟩, ⟨_, rfl⟩, by simp⟩

theorem wf_zeros {L} (hL : L.Pairwise lexLt) (hb : ∀ s ∈ L, ∀ b ∈ s, b < 256) : WF (zeros L) := by
  refine ⟨?_, fun k v h => (mem_zeros.mp h).2.1, fun k v h => hb k (mem_zeros.mp h).1⟩
  unfold zeros
  rw [List.map_map]
  have : (Prod.fst ∘ fun k : List Nat => (k, 0)) = id := rfl
  rw [this, List.map_id]
  have nd : L.Nodup := hL.imp fun {a b} h => by rintro rfl; exact lexLt_irrefl a h
  exact nd.sublist List.filter_sublist

theorem Build.canon {L D h F} (hL : L.Pairwise lexLt) (hb : ∀ s ∈ L, ∀ b ∈ s, b < 256) (B : Build L D [] [] h F) :
    Canon (tr h) (zeros L) := by
  have hD : ∀ p, p ∈ D ↔ ExL L p := by
    intro p
    constructor
    · intro hp; exact B.ex p (by simp [hp])
    · intro hp
      rcases B.cover p hp with w | ⟨r, hr, _⟩
      · exact w
      · simp at hr
  have hcases : ∀ s, (s ∈ D ∧ tr h s = some .inner) ∨
      (s ∉ D ∧ (s = [] ∨ ∃ q ∈ D, ChildOf L q s) ∧ tr h s = some (.leaf 0)) ∨
      (s ∉ D ∧ ¬ (s = [] ∨ ∃ q ∈ D, ChildOf L q s) ∧ tr h s = none) := by
    intro s
    by_cases h1 : s ∈ D
    · exact Or.inl ⟨h1, B.inner s h1⟩
    · by_cases h2 : s = [] ∨ ∃ q ∈ D, ChildOf L q s
      · exact Or.inr (Or.inl ⟨h1, h2, B.leaf s h1 h2⟩)
      · exact Or.inr (Or.inr ⟨h1, h2, B.out s h1 h2⟩)
  constructor
  · intro s
    rw [ex_zeros, ← hD]
    rcases hcases s with ⟨a, e⟩ | ⟨a, _, e⟩ | ⟨a, _, e⟩ <;> rw [e] <;> simp [a]
  · intro s x
    have hleaf : tr h s = some (.leaf x) ↔ x = 0 ∧ s ∉ D ∧ (s = [] ∨ ∃ q ∈ D, ChildOf L q s) := by
      rcases hcases s with ⟨a, e⟩ | ⟨a, b, e⟩ | ⟨a, b, e⟩
      · rw [e]; simp [a]
      · rw [e]
        constructor
        · intro w; simp at w; exact ⟨w.symm, a, b⟩
        · rintro ⟨rfl, _⟩; rfl
      · rw [e]; simp [b]
    rw [hleaf]
    unfold LeafOf
    constructor
    · rintro ⟨rfl, hs, hc⟩
      rcases hc with rfl | ⟨q, hq, a, rfl, hc⟩
      · right; right
        refine ⟨rfl, rfl, ?_⟩
        unfold zeros
        rw [List.map_eq_nil_iff, List.filter_eq_nil_iff]
        intro k hk w
        rw [decide_eq_true_iff] at w
        cases k with
        | nil => exact w rfl
        | cons a t => exact hs ((hD []).mpr ⟨a, t, hk⟩)
      · rcases hc with ⟨t, ht⟩ | ⟨rfl, h1, h2⟩
        · left
          have ht0 : t = [] := by
            cases t with
            | nil => rfl
            | cons b t => exact absurd ((hD _).mpr ⟨b, t, by simpa using ht⟩) hs
          subst ht0
          refine ⟨0, rfl, mem_zeros.mpr ⟨ht, by simp, rfl⟩, ?_⟩
          rw [ex_zeros, ← hD]; exact hs
        · right; left
          exact ⟨q, 0, rfl, rfl, mem_zeros.mpr ⟨h1, h2, rfl⟩, ex_zeros.mpr ((hD q).mp hq)⟩
    · rintro (⟨v, rfl, hm, hne⟩ | ⟨k, v, rfl, rfl, hm, hex⟩ | ⟨rfl, rfl, hm⟩)
      · obtain ⟨m1, m2, rfl⟩ := mem_zeros.mp hm
        rw [ex_zeros, ← hD] at hne
        refine ⟨rfl, hne, Or.inr ?_⟩
        rcases List.eq_nil_or_concat s with rfl | ⟨q, a, e⟩
        · exact absurd rfl m2
        · rw [List.concat_eq_append] at e
          subst e
          exact ⟨q, (hD q).mpr ⟨a, [], m1⟩, a, rfl, Or.inl ⟨[], m1⟩⟩
      · obtain ⟨m1, m2, rfl⟩ := mem_zeros.mp hm
        refine ⟨rfl, ?_, Or.inr ⟨k, (hD k).mpr (ex_zeros.mp hex), 256, rfl, Or.inr ⟨rfl, m1, m2⟩⟩⟩
        rw [hD]
        rintro ⟨a, t, w⟩
        have := hb _ w 256 (by simp)
        omega
      · refine ⟨rfl, ?_, Or.inl rfl⟩
        rw [hD, ← ex_zeros]
        rintro ⟨k, v, w, _⟩
        rw [hm] at w; simp at w

/-- The bulk `assign` builds the canonical trie of the non-empty strings; the size field counts all strings. -/
theorem bulk_spec {L : List (List Nat)} (hL : L.Pairwise lexLt) (hb : ∀ s ∈ L, ∀ b ∈ s, b < 256) :
    ∃ h F, Base.assign L = some h ∧ Inv h F ∧ h.base 0 = L.length ∧ Canon (tr h) (zeros L) := by
  have hbuild : ∃ h F, buildLoop ((L.map fun k => k.length + 1).sum + 1) [⟨L, 0⟩] Heap.empty = some h ∧ Inv h F ∧
      Canon (tr h) (zeros L) := by
    by_cases hex : ExL L []
    · have B : Build L [] [[]] [⟨L, 0⟩] Heap.empty (fun _ => False) := by
        refine ⟨inv_empty, rfl, ?_, by simp, by simpa using hex, by simp, ?_, ?_, ?_, by simp⟩
        · refine List.Forall₂.cons ⟨rfl, fun _ => rfl, ?_⟩ List.Forall₂.nil
          intro q a e; simp at e
        · intro s _ hs
          simp at hs
          rw [tr_empty, if_pos hs]
        · intro s _ hs
          simp at hs
          rw [tr_empty, if_neg hs]
        · intro p _
          exact Or.inr ⟨[], by simp, by simp⟩
      obtain ⟨h, F, D, e, B'⟩ := buildLoop_spec hL hb ((L.map fun k => k.length + 1).sum + 1) _ _ _ _ _ B
        (Nat.le_refl _)
      exact ⟨h, F, e, B'.I, B'.canon hL hb⟩
    · have hnil : ∀ s ∈ L, s = [] := by
        intro s hs
        cases s with
        | nil => rfl
        | cons a t => exact absurd ⟨a, t, hs⟩ hex
      have R : Repr L [] ⟨L, 0⟩ := ⟨rfl, fun _ => rfl, by intro q a e; simp at e⟩
      obtain ⟨ls, as, Q', e1, _, m1, _⟩ := assignChildren_spec hL hb R (by simp)
      have hls : ls = [] := by
        apply List.eq_nil_iff_forall_not_mem.mpr
        intro a ha
        rcases (m1 a).mp ha with ⟨t, ht⟩ | ⟨_, _, w⟩
        · exact hex ⟨a, t, ht⟩
        · exact w rfl
      refine ⟨Heap.empty, fun _ => False, ?_, inv_empty, ?_⟩
      · rw [buildLoop, e1, Option.bind_some, if_pos hls]
      · have hz : zeros L = [] := by
          unfold zeros
          rw [List.map_eq_nil_iff, List.filter_eq_nil_iff]
          intro s hs; simp [hnil s hs]
        rw [hz]
        exact rep_empty.C
  obtain ⟨h, F, e, I, C⟩ := hbuild
  obtain ⟨h', e', I', b', w', t'⟩ := setSize_spec I (L.length : Int)
  refine ⟨h', F, ?_, I', b', ?_⟩
  · unfold Base.assign
    rw [if_neg, e]
    · exact e'
    · rw [(sortedUnique_iff L).mpr hL]; simp
  · exact ⟨fun s => by rw [t']; exact C.inner s, fun s x => by rw [t']; exact C.leaf s x⟩

theorem Ex.congr {m m' : KMap} (hm : ∀ e, e ∈ m ↔ e ∈ m') (s) : Ex m s ↔ Ex m' s := by
  unfold Ex
  constructor <;> rintro ⟨k, v, h1, h2⟩
  · exact ⟨k, v, (hm _).mp h1, h2⟩
  · exact ⟨k, v, (hm _).mpr h1, h2⟩

theorem LeafOf.congr {m m' : KMap} (hm : ∀ e, e ∈ m ↔ e ∈ m') (hn : m = [] ↔ m' = []) (s x) :
    LeafOf m s x ↔ LeafOf m' s x := by
  unfold LeafOf
  simp only [hm, hn, Ex.congr hm]

theorem Canon.congr_map {f} {m m' : KMap} (C : Canon f m) (hm : ∀ e, e ∈ m ↔ e ∈ m') (hn : m = [] ↔ m' = []) : Canon f m' :=
  ⟨fun s => by rw [C.inner, Ex.congr hm], fun s x => by rw [C.leaf, LeafOf.congr hm hn]⟩

/-- Reversing the list that stands for a map changes nothing. -/
theorem Rep.of_reverse {h F m} (I : Inv h F) (W : WF m) (hs : h.base 0 = m.length) (C : Canon (tr h) m) :
    Rep h F m.reverse := by
  refine ⟨I, ⟨?_, fun k v q => W.ne k v (by simpa using q), fun k v q => W.byte k v (by simpa using q)⟩,
    by simpa using hs, C.congr_map (by simp) (by simp)⟩
  rw [List.map_reverse, List.nodup_reverse]
  exact W.nd

theorem run_zeros {L : List (List Nat)} (nd : L.Nodup) :
    (L.map fun k => Op.insert k 0).foldl step [] = (zeros L).reverse := by
  have gen : ∀ (L : List (List Nat)) (m : KMap), L.Nodup → (∀ k ∈ L, k ∉ m.map Prod.fst) →
      (L.map fun k => Op.insert k 0).foldl step m = (zeros L).reverse ++ m := by
    intro L
    induction L with
    | nil => intro m _ _; rfl
    | cons k L ih =>
      intro m nd hk
      rw [List.nodup_cons] at nd
      rw [List.map_cons, List.foldl_cons]
      by_cases h0 : k = []
      · have : step m (.insert k 0) = m := by simp [step, h0]
        rw [this, ih m nd.2 (fun k' h => hk k' (by simp [h]))]
        simp [zeros, h0]
      · have hg : (KeyMap.get m k).isSome = false := by
          have := hk k (by simp)
          unfold KeyMap.get
          rw [Option.isSome_map, Bool.eq_false_iff]
          intro w
          rw [List.find?_isSome] at w
          obtain ⟨e, he, w⟩ := w
          exact this (List.mem_map.mpr ⟨e, he, by simpa using w⟩)
        have : step m (.insert k 0) = (k, 0) :: m := by simp [step, h0, hg]
        rw [this, ih _ nd.2 ?_]
        · simp [zeros, h0]
        · intro k' h
          have := hk k' (by simp [h])
          simp only [List.map_cons, List.mem_cons, not_or]
          refine ⟨?_, this⟩
          rintro rfl
          exact nd.1 h
  simpa using gen L [] nd (by simp)

end Verif.Proof.Trie
