import Verif.Proof.TrieInsert

/-!
`erase` of `trie_base`.
-/
namespace Verif.Proof.Trie
open Verif.Spec Verif.Model.Trie Verif.Spec.KeyMap

section
variable {T T' : Tree} {m : KMap}

theorem mem_erase (W : WF m) {k s u} : (s, u) ∈ eraseLossy m k ↔
    s ≠ k ∧ ∃ v, (s, v) ∈ m ∧ u = if lone m s k then 0 else v := by
  unfold eraseLossy
  simp only [List.mem_map, List.mem_filter, decide_eq_true_eq]
  constructor
  · rintro ⟨⟨s', v⟩, ⟨a, b⟩, e⟩
    by_cases hl : lone m s' k
    · simp only [hl, if_true, Prod.mk.injEq] at e
      obtain ⟨rfl, rfl⟩ := e
      exact ⟨b, v, a, by simp [hl]⟩
    · simp only [hl, if_false, Prod.mk.injEq] at e
      obtain ⟨rfl, rfl⟩ := e
      exact ⟨b, v, a, by simp [hl]⟩
  · rintro ⟨b, v, a, rfl⟩
    refine ⟨(s, v), ⟨a, b⟩, ?_⟩
    by_cases hl : lone m s k <;> simp [hl]

theorem WF.erase (W : WF m) (k : List Nat) : WF (eraseLossy m k) := by
  refine ⟨?_, ?_, ?_⟩
  · have : (eraseLossy m k).map Prod.fst = (m.map Prod.fst).filter (· ≠ k) := by
      unfold eraseLossy
      rw [List.map_map]
      have : (Prod.fst ∘ fun e => if lone m e.1 k then (e.1, 0) else e) = (Prod.fst : List Nat × Nat → _) := by
        funext e
        simp only [Function.comp]
        split <;> rfl
      rw [this, List.filter_map]; rfl
    rw [this]
    exact W.nd.filter _
  · intro s u h
    obtain ⟨_, v, a, _⟩ := (mem_erase W).mp h
    exact W.ne s v a
  · intro s u h
    obtain ⟨_, v, a, _⟩ := (mem_erase W).mp h
    exact W.byte s v a

theorem erase_length (W : WF m) {k v} (hk : (k, v) ∈ m) :
    (eraseLossy m k).length + 1 = m.length := by
  unfold eraseLossy
  rw [List.length_map]
  have nd := W.nd
  clear W
  induction m with
  | nil => simp at hk
  | cons e m ih =>
    simp only [List.map_cons, List.nodup_cons, List.mem_map, not_exists, not_and] at nd
    by_cases he : e.1 = k
    · have : m.filter (fun e => e.1 ≠ k) = m := by
        rw [List.filter_eq_self]
        intro a ha
        simp
        intro q
        exact nd.1 a ha (q.trans he.symm)
      rw [List.filter_cons_of_neg (by simp [he]), this]; simp
    · rw [List.filter_cons_of_pos (by simp [he])]
      have : (k, v) ∈ m := by
        rcases List.mem_cons.mp hk with q | q
        · rw [← q] at he; simp at he
        · exact q
      have := ih this nd.2
      simp only [List.length_cons]; omega

theorem lone_iff (W : WF m) {k v p} (hk : (k, v) ∈ m) : lone m p k ↔
    p ≠ k ∧ p <+: k ∧ ∀ k' u, (k', u) ∈ m → p <+: k' → k' ≠ p → k' = k := by
  unfold lone
  rw [(get_some W).mpr hk]
  simp only [Option.isSome_some, true_and]
  constructor
  · rintro ⟨a, b, c⟩; exact ⟨a, b, fun k' u h => c (k', u) h⟩
  · rintro ⟨a, b, c⟩; exact ⟨a, b, fun e h => c e.1 e.2 h⟩

theorem erase_absent {k} (hk : ∀ v, (k, v) ∉ m) : eraseLossy m k = m := by
  unfold eraseLossy
  have : m.filter (fun e => e.1 ≠ k) = m := by
    rw [List.filter_eq_self]
    rintro ⟨a, b⟩ ha
    simp
    rintro rfl; exact hk _ ha
  rw [this]
  conv => rhs; rw [← List.map_id m]
  apply List.map_congr_left
  intro e _
  rw [if_neg]; · rfl
  intro hl
  have := hl.2.2.1
  rw [get_none.mpr hk] at this
  simp at this

theorem Ex_erase (W : WF m) {k s} : Ex (eraseLossy m k) s ↔
    ∃ k' u, (k', u) ∈ m ∧ k' ≠ k ∧ s <+: k' ∧ s ≠ k' := by
  constructor
  · rintro ⟨k', u, h, a, b⟩
    obtain ⟨c, v, d, _⟩ := (mem_erase W).mp h
    exact ⟨k', v, d, c, a, b⟩
  · rintro ⟨k', u, h, c, a, b⟩
    exact ⟨k', _, (mem_erase W).mpr ⟨c, u, h, rfl⟩, a, b⟩

/-- The erased key has extensions: only its empty transition goes. -/
theorem Canon.erase_null (C : Canon T m) (W : WF m) {k v} (hk : (k, v) ∈ m) (hE : Ex m k)
    (h1 : T' (k ++ [256]) = none) (h2 : ∀ s, s ≠ k ++ [256] → T' s = T s) :
    Canon T' (eraseLossy m k) := by
  obtain ⟨k2, v2, hk2, p2, n2⟩ := hE
  have hE : Ex m k := ⟨k2, v2, hk2, p2, n2⟩
  have hEx : ∀ s, Ex (eraseLossy m k) s ↔ Ex m s := by
    intro s
    rw [Ex_erase W]
    constructor
    · rintro ⟨k', u, a, _, b, c⟩; exact ⟨k', u, a, b, c⟩
    · rintro ⟨k', u, a, b, c⟩
      by_cases e : k' = k
      · subst e
        refine ⟨k2, v2, hk2, n2.symm, b.trans p2, ?_⟩
        rintro rfl
        exact n2 (p2.eq_of_length_le b.length_le)
      · exact ⟨k', u, a, e, b, c⟩
  have hmem : ∀ s u, (s, u) ∈ eraseLossy m k ↔ s ≠ k ∧ (s, u) ∈ m := by
    intro s u
    rw [mem_erase W]
    have : ∀ s, ¬ lone m s k := by
      intro s hl
      rw [lone_iff W hk] at hl
      have hne : k2 ≠ s := by
        rintro rfl
        exact n2 (p2.eq_of_length_le hl.2.1.length_le)
      exact n2 (hl.2.2 k2 v2 hk2 (hl.2.1.trans p2) hne).symm
    simp [this]
  have hb := W.byte k v hk
  refine ⟨?_, ?_⟩
  · intro s
    rw [hEx]
    by_cases hs : s = k ++ [256]
    · subst hs
      rw [h1]
      constructor
      · intro q; simp at q
      · intro q; have := q.bytes W 256 (by simp); omega
    · rw [h2 s hs]; exact C.inner s
  · intro s x
    by_cases hs : s = k ++ [256]
    · subst hs
      rw [h1]
      constructor
      · intro q; simp at q
      · rintro (⟨u, hx, q, w⟩ | ⟨k', u, e, hx, q, w⟩ | ⟨q, _⟩)
        · have := W.byte _ _ ((hmem _ _).mp q).2 256 (by simp); omega
        · have : k = k' := by simpa using e
          exact absurd this.symm ((hmem _ _).mp q).1
        · simp at q
    · rw [h2 s hs, C.leaf s x]
      constructor
      · rintro (⟨u, hx, q, w⟩ | ⟨k', u, e, hx, q, w⟩ | ⟨_, _, q⟩)
        · refine Or.inl ⟨u, hx, (hmem _ _).mpr ⟨?_, q⟩, fun z => w ((hEx s).mp z)⟩
          rintro rfl; exact w hE
        · refine Or.inr (Or.inl ⟨k', u, e, hx, (hmem _ _).mpr ⟨?_, q⟩, (hEx k').mpr w⟩)
          rintro rfl; exact hs e
        · rw [q] at hk; simp at hk
      · rintro (⟨u, hx, q, w⟩ | ⟨k', u, e, hx, q, w⟩ | ⟨_, _, q⟩)
        · exact Or.inl ⟨u, hx, ((hmem _ _).mp q).2, fun y => w ((hEx s).mpr y)⟩
        · exact Or.inr (Or.inl ⟨k', u, e, hx, ((hmem _ _).mp q).2, (hEx k').mp w⟩)
        · have := (hmem k2 v2).mpr ⟨n2.symm, hk2⟩
          rw [q] at this; simp at this

/-- The path from `q0 ++ [l]` to `k` goes; a sibling keeps `q0`. -/
theorem Canon.erase_path (C : Canon T m) (W : WF m) {k v q0 l k2 v2} (hk : (k, v) ∈ m)
    (hq : q0 ++ [l] <+: k) (hO : ∀ k' u, (k', u) ∈ m → q0 ++ [l] <+: k' → k' = k)
    (hk2 : (k2, v2) ∈ m) (n2 : k2 ≠ k) (p2 : q0 <+: k2) (q2 : q0 ≠ k2)
    (h1 : ∀ s, q0 ++ [l] <+: s → s <+: k → T' s = none)
    (h2 : ∀ s, ¬ (q0 ++ [l] <+: s ∧ s <+: k) → T' s = T s) :
    Canon T' (eraseLossy m k) := by
  have hb := W.byte k v hk
  obtain ⟨ls, hk0⟩ := hq
  have hk' : k = q0 ++ l :: ls := by simp [← hk0]
  have hq : q0 ++ [l] <+: k := ⟨ls, hk0⟩
  have hEk : ∀ s, q0 ++ [l] <+: s → ¬ Ex (eraseLossy m k) s := by
    intro s hs
    rw [Ex_erase W]
    rintro ⟨k', u, a, b, c, d⟩
    exact b (hO k' u a (hs.trans c))
  have hlow : ∀ s, s <+: q0 → s <+: k2 ∧ s ≠ k2 := by
    intro s hs
    refine ⟨hs.trans p2, ?_⟩
    rintro rfl
    exact q2 (p2.eq_of_length_le hs.length_le)
  have hup : ∀ s, ¬ (q0 ++ [l] <+: s ∧ s <+: k) → (Ex (eraseLossy m k) s ↔ Ex m s) := by
    intro s hs
    rw [Ex_erase W]
    constructor
    · rintro ⟨k', u, a, _, b, c⟩; exact ⟨k', u, a, b, c⟩
    · rintro ⟨k', u, a, b, c⟩
      by_cases e : k' = k
      · subst e
        rcases prefix_cases hk' b with w | w
        · exact ⟨k2, v2, hk2, n2, hlow s w⟩
        · exact absurd ⟨w, b⟩ hs
      · exact ⟨k', u, a, e, b, c⟩
  have hmem : ∀ s u, (s, u) ∈ eraseLossy m k ↔ s ≠ k ∧ (s, u) ∈ m := by
    intro s u
    rw [mem_erase W]
    constructor
    · rintro ⟨a, w, b, c⟩
      refine ⟨a, ?_⟩
      rw [if_neg] at c
      · rw [c]; exact b
      · intro hl
        rw [lone_iff W hk] at hl
        rcases prefix_cases hk' hl.2.1 with z | z
        · have := hlow s z
          exact n2 (hl.2.2 k2 v2 hk2 this.1 this.2.symm)
        · exact hl.1 (hO s w b z)
    · rintro ⟨a, b⟩
      refine ⟨a, u, b, ?_⟩
      rw [if_neg]
      intro hl
      rw [lone_iff W hk] at hl
      rcases prefix_cases hk' hl.2.1 with z | z
      · have := hlow s z
        exact n2 (hl.2.2 k2 v2 hk2 this.1 this.2.symm)
      · exact hl.1 (hO s u b z)
  have hnEk : ¬ Ex m k := by
    rintro ⟨k', u, a, b, c⟩
    exact c (hO k' u a (hq.trans b)).symm
  refine ⟨?_, ?_⟩
  · intro s
    by_cases hs : q0 ++ [l] <+: s ∧ s <+: k
    · rw [h1 s hs.1 hs.2]
      constructor
      · intro q; simp at q
      · intro q; exact absurd q (hEk s hs.1)
    · rw [h2 s hs, hup s hs]; exact C.inner s
  · intro s x
    by_cases hs : q0 ++ [l] <+: s ∧ s <+: k
    · rw [h1 s hs.1 hs.2]
      constructor
      · intro q; simp at q
      · rintro (⟨u, hx, q, w⟩ | ⟨k', u, e, hx, q, w⟩ | ⟨q, _⟩)
        · have := (hmem _ _).mp q
          exact absurd (hO _ _ this.2 hs.1) this.1
        · have := hb 256 (hs.2.subset (by rw [e]; simp)); omega
        · have := hs.1.length_le; rw [q] at this; simp at this
    · rw [h2 s hs, C.leaf s x]
      constructor
      · rintro (⟨u, hx, q, w⟩ | ⟨k', u, e, hx, q, w⟩ | ⟨_, _, q⟩)
        · refine Or.inl ⟨u, hx, (hmem _ _).mpr ⟨?_, q⟩, fun z => w ((hup s hs).mp z)⟩
          rintro rfl; exact hs ⟨hq, List.prefix_rfl⟩
        · have hkk : k' ≠ k := by rintro rfl; exact hnEk w
          have hs' : ¬ (q0 ++ [l] <+: k' ∧ k' <+: k) := fun z => hkk (hO k' u q z.1)
          exact Or.inr (Or.inl ⟨k', u, e, hx, (hmem _ _).mpr ⟨hkk, q⟩, (hup k' hs').mpr w⟩)
        · rw [q] at hk; simp at hk
      · rintro (⟨u, hx, q, w⟩ | ⟨k', u, e, hx, q, w⟩ | ⟨_, _, q⟩)
        · exact Or.inl ⟨u, hx, ((hmem _ _).mp q).2, fun y => w ((hup s hs).mpr y)⟩
        · have hkk := (hmem _ _).mp q
          have hs' : ¬ (q0 ++ [l] <+: k' ∧ k' <+: k) := fun z => hkk.1 (hO k' u hkk.2 z.1)
          exact Or.inr (Or.inl ⟨k', u, e, hx, hkk.2, (hup k' hs').mp w⟩)
        · have := (hmem k2 v2).mpr ⟨n2, hk2⟩
          rw [q] at this; simp at this

/-- The path below the key `q` goes, and `q` loses its empty transition. -/
theorem Canon.erase_lone (C : Canon T m) (W : WF m) {k v q w} (hk : (k, v) ∈ m)
    (hqm : (q, w) ∈ m) (hqk : q <+: k) (hne : q ≠ k)
    (hO : ∀ k' u, (k', u) ∈ m → q <+: k' → k' ≠ q → k' = k)
    (h1 : ∀ s, q <+: s → s <+: k → s ≠ q → T' s = none)
    (h2 : T' (q ++ [256]) = none) (h3 : T' q = some (.leaf 0))
    (h4 : ∀ s, ¬ (q <+: s ∧ s <+: k) → s ≠ q ++ [256] → T' s = T s) :
    Canon T' (eraseLossy m k) := by
  have hb := W.byte k v hk
  have hqb := W.byte q w hqm
  have hq0 := W.ne q w hqm
  obtain ⟨t, ht⟩ := hqk
  cases t with
  | nil => simp at ht; exact absurd ht hne
  | cons l ls =>
  have hk' : k = q ++ l :: ls := ht.symm
  have hqk : q <+: k := ⟨_, ht⟩
  have hEk : ∀ s, q <+: s → ¬ Ex (eraseLossy m k) s := by
    intro s hs
    rw [Ex_erase W]
    rintro ⟨k', u, a, b, c, d⟩
    refine b (hO k' u a (hs.trans c) ?_)
    rintro rfl
    exact d (c.eq_of_length_le hs.length_le)
  have hup : ∀ s, ¬ (q <+: s ∧ s <+: k) → (Ex (eraseLossy m k) s ↔ Ex m s) := by
    intro s hs
    rw [Ex_erase W]
    constructor
    · rintro ⟨k', u, a, _, b, c⟩; exact ⟨k', u, a, b, c⟩
    · rintro ⟨k', u, a, b, c⟩
      by_cases e : k' = k
      · subst e
        rcases prefix_cases hk' b with z | z
        · refine ⟨q, w, hqm, hne, z, ?_⟩
          rintro rfl; exact hs ⟨z, hqk⟩
        · exact absurd ⟨(List.prefix_append _ _).trans z, b⟩ hs
      · exact ⟨k', u, a, e, b, c⟩
  have hlq : lone m q k := (lone_iff W hk).mpr ⟨hne, hqk, hO⟩
  have hlo : ∀ s u, (s, u) ∈ m → s ≠ q → ¬ lone m s k := by
    intro s u hm hs hl
    rw [lone_iff W hk] at hl
    rcases prefix_cases hk' hl.2.1 with z | z
    · exact hne (hl.2.2 q w hqm z (fun e => hs e.symm))
    · exact hl.1 (hO s u hm ((List.prefix_append _ _).trans z) hs)
  have hmem : ∀ s u, s ≠ q → ((s, u) ∈ eraseLossy m k ↔ s ≠ k ∧ (s, u) ∈ m) := by
    intro s u hs
    rw [mem_erase W]
    constructor
    · rintro ⟨a, z, b, c⟩
      rw [if_neg (hlo s z b hs)] at c
      exact ⟨a, by rw [c]; exact b⟩
    · rintro ⟨a, b⟩
      exact ⟨a, u, b, by rw [if_neg (hlo s u b hs)]⟩
  have hmq : (q, 0) ∈ eraseLossy m k :=
    (mem_erase W).mpr ⟨hne, w, hqm, by rw [if_pos hlq]⟩
  have We := W.erase k
  have hnEk : ¬ Ex m k := by
    rintro ⟨k', u, a, b, c⟩
    refine c (hO k' u a (hqk.trans b) ?_).symm
    rintro rfl
    exact c (b.eq_of_length_le hqk.length_le)
  refine ⟨?_, ?_⟩
  · intro s
    by_cases hs : q <+: s ∧ s <+: k
    · have : T' s ≠ some .inner := by
        by_cases e : s = q
        · rw [e, h3]; simp
        · rw [h1 s hs.1 hs.2 e]; simp
      exact ⟨fun z => absurd z this, fun z => absurd z (hEk s hs.1)⟩
    · by_cases e : s = q ++ [256]
      · subst e
        rw [h2]
        constructor
        · intro z; simp at z
        · intro z; exact absurd z (hEk _ (List.prefix_append _ _))
      · rw [h4 s hs e, hup s hs]; exact C.inner s
  · intro s x
    by_cases hs : q <+: s ∧ s <+: k
    · have hnull : ∀ k', s ≠ k' ++ [256] := by
        rintro k' e
        have := hb 256 (hs.2.subset (by rw [e]; simp)); omega
      by_cases e : s = q
      · subst e
        rw [h3]
        constructor
        · intro z
          simp at z
          exact Or.inl ⟨0, by simp [← z], hmq, hEk s List.prefix_rfl⟩
        · rintro (⟨u, hx, z, y⟩ | ⟨k', u, e, _⟩ | ⟨z, _⟩)
          · rw [hx, We.uniq z hmq]; rfl
          · exact absurd e (hnull k')
          · exact absurd z hq0
      · rw [h1 s hs.1 hs.2 e]
        constructor
        · intro z; simp at z
        · rintro (⟨u, hx, z, y⟩ | ⟨k', u, e, _⟩ | ⟨_, _, z⟩)
          · have := (hmem s u e).mp z
            exact absurd (hO s u this.2 hs.1 e) this.1
          · exact absurd e (hnull k')
          · rw [z] at hmq; simp at hmq
    · by_cases e : s = q ++ [256]
      · subst e
        rw [h2]
        constructor
        · intro z; simp at z
        · rintro (⟨u, hx, z, y⟩ | ⟨k', u, e, _, _, z⟩ | ⟨z, _⟩)
          · have := We.byte _ _ z 256 (by simp); omega
          · have : q = k' := by simpa using e
            subst this
            exact absurd z (hEk _ List.prefix_rfl)
          · simp at z
      · rw [h4 s hs e, C.leaf s x]
        have hsq : s ≠ q := by rintro rfl; exact hs ⟨List.prefix_rfl, hqk⟩
        have hsk : s ≠ k := by rintro rfl; exact hs ⟨hqk, List.prefix_rfl⟩
        constructor
        · rintro (⟨u, hx, z, y⟩ | ⟨k', u, e', hx, z, y⟩ | ⟨_, _, z⟩)
          · exact Or.inl ⟨u, hx, (hmem s u hsq).mpr ⟨hsk, z⟩, fun g => y ((hup s hs).mp g)⟩
          · have a1 : k' ≠ q := by rintro rfl; exact e e'
            have a2 : k' ≠ k := by rintro rfl; exact hnEk y
            have a3 : ¬ (q <+: k' ∧ k' <+: k) := fun g => a2 (hO k' u z g.1 a1)
            exact Or.inr (Or.inl ⟨k', u, e', hx, (hmem k' u a1).mpr ⟨a2, z⟩, (hup k' a3).mpr y⟩)
          · rw [z] at hk; simp at hk
        · rintro (⟨u, hx, z, y⟩ | ⟨k', u, e', hx, z, y⟩ | ⟨_, _, z⟩)
          · exact Or.inl ⟨u, hx, ((hmem s u hsq).mp z).2, fun g => y ((hup s hs).mpr g)⟩
          · have a1 : k' ≠ q := by rintro rfl; exact e e'
            have z' := (hmem k' u a1).mp z
            have a3 : ¬ (q <+: k' ∧ k' <+: k) := fun g => z'.1 (hO k' u z'.2 g.1 a1)
            exact Or.inr (Or.inl ⟨k', u, e', hx, z'.2, (hup k' a3).mp y⟩)
          · rw [z] at hmq; simp at hmq

end

end Verif.Proof.Trie
