import Verif.Proof.TrieVal

/-!
`stable_trie_base`: every key ends with an empty transition.
-/
namespace Verif.Proof.Trie
open Verif.Spec Verif.Model.Trie Verif.Spec.KeyMap

/-- Some key has the prefix `s`. -/
def Px (m : KMap) (s : List Nat) : Prop := ∃ k v, (k, v) ∈ m ∧ s <+: k

structure SCanon (T : Tree) (m : KMap) : Prop where
  inner : ∀ s, T s = some .inner ↔ Px m s
  leaf : ∀ s x, T s = some (.leaf x) ↔
    (∃ k, ∃ v : Nat, s = k ++ [256] ∧ x = v ∧ (k, v) ∈ m) ∨ (s = [] ∧ x = 0 ∧ m = [])

structure SRep (h : Heap) (F : Nat → Prop) (m : KMap) : Prop where
  I : Inv h F
  W : WF m
  size : h.base 0 = m.length
  C : SCanon (tr h) m

section
variable {T T' : Tree} {m : KMap}

theorem SCanon.congr (C : SCanon T m) (h : ∀ s, T' s = T s) : SCanon T' m :=
  ⟨fun s => by rw [h]; exact C.inner s, fun s x => by rw [h]; exact C.leaf s x⟩

theorem SCanon.cases (C : SCanon T m) {s} (h : T s ≠ none) :
    Px m s ∨ (∃ k, ∃ v, s = k ++ [256] ∧ (k, v) ∈ m) ∨ s = [] := by
  cases hT : T s with
  | none => exact absurd hT h
  | some k =>
    cases k with
    | inner => exact Or.inl ((C.inner s).mp hT)
    | leaf x =>
      rcases (C.leaf s x).mp hT with ⟨k, v, a, _, b⟩ | ⟨a, _⟩
      · exact Or.inr (Or.inl ⟨k, v, a, b⟩)
      · exact Or.inr (Or.inr a)

theorem SCanon.of_px (C : SCanon T m) {s} (h : Px m s) : T s ≠ none := by
  rw [(C.inner s).mpr h]; simp

theorem Px.mono {s t} (h : Px m t) (hp : s <+: t) : Px m s := by
  obtain ⟨k, v, hm, a⟩ := h
  exact ⟨k, v, hm, hp.trans a⟩

theorem Px.bytes (W : WF m) {s} (h : Px m s) : ∀ b ∈ s, b < 256 := by
  obtain ⟨k, v, hm, a⟩ := h
  intro b hb
  exact W.byte k v hm b (a.subset hb)

theorem SCanon.node (C : SCanon T m) {s} (hb : ∀ b ∈ s, b < 256) (hs : s ≠ []) :
    T s ≠ none ↔ Px m s := by
  constructor
  · intro h
    rcases C.cases h with q | ⟨k, v, e, _⟩ | q
    · exact q
    · exact absurd e (bytes_not_null hb)
    · exact absurd q hs
  · exact C.of_px

theorem SCanon.null (C : SCanon T m) (W : WF m) {s} :
    T (s ++ [256]) ≠ none ↔ ∃ v, (s, v) ∈ m := by
  constructor
  · intro h
    rcases C.cases h with q | ⟨k, v, e, a⟩ | q
    · have := q.bytes W 256 (by simp); omega
    · have : s = k := by simpa using e
      subst this; exact ⟨v, a⟩
    · simp at q
  · rintro ⟨v, a⟩
    rw [(C.leaf _ v).mpr (Or.inl ⟨s, v, rfl, rfl, a⟩)]; simp

theorem SCanon.full (C : SCanon T m) {q} (h : T q = some .inner) : ∃ l, T (q ++ [l]) ≠ none := by
  obtain ⟨k, v, hm, t, ht⟩ := (C.inner q).mp h
  cases t with
  | nil =>
    simp at ht; subst ht
    exact ⟨256, by rw [(C.leaf _ v).mpr (Or.inl ⟨q, v, rfl, rfl, hm⟩)]; simp⟩
  | cons a t => exact ⟨a, C.of_px ⟨k, v, hm, t, by simp [← ht]⟩⟩

theorem SCanon.down (C : SCanon T m) {s t} (h : T s ≠ none) (hp : t <+: s)
    (hne : t ≠ s) : Px m t := by
  rcases C.cases h with q | ⟨k, v, rfl, q⟩ | rfl
  · exact q.mono hp
  · exact ⟨k, v, q, (List.prefix_concat_iff.mp hp).resolve_left hne⟩
  · exact absurd (List.prefix_nil.mp hp) hne

theorem Px_cons {k v s} : Px ((k, v) :: m) s ↔ Px m s ∨ s <+: k := by
  constructor
  · rintro ⟨k', u, hm, a⟩
    rcases List.mem_cons.mp hm with e | e
    · simp at e; right; rw [← e.1]; exact a
    · exact Or.inl ⟨k', u, e, a⟩
  · rintro (⟨k', u, hm, a⟩ | a)
    · exact ⟨k', u, by simp [hm], a⟩
    · exact ⟨k, v, by simp, a⟩

theorem SCanon.insert (C : SCanon T m) (W : WF m) {k p v r} (hb : ∀ b ∈ k, b < 256)
    (hn : ∀ u, (k, u) ∉ m) (hk : k = p ++ r) (hp : T p ≠ none)
    (h1 : T' (k ++ [256]) = some (.leaf (v : Nat)))
    (h2 : ∀ s, p <+: s → s <+: k → T' s = some .inner)
    (h3 : ∀ s, ¬ (p <+: s ∧ s <+: k) → s ≠ k ++ [256] → T' s = T s) :
    SCanon T' ((k, v) :: m) := by
  have hpk : p <+: k := hk ▸ List.prefix_append _ _
  have hlow : ∀ s, ¬ (p <+: s ∧ s <+: k) → (Px ((k, v) :: m) s ↔ Px m s) := by
    intro s hs
    rw [Px_cons]
    refine ⟨?_, Or.inl⟩
    rintro (q | q)
    · exact q
    · rcases List.prefix_or_prefix_of_prefix q hpk with z | z
      · refine C.down hp z ?_
        rintro rfl; exact hs ⟨List.prefix_rfl, q⟩
      · exact absurd ⟨z, q⟩ hs
  have hbb : ∀ k' u, (k', u) ∈ (k, v) :: m → ∀ b ∈ k', b < 256 := by
    intro k' u hm
    rcases List.mem_cons.mp hm with e | e
    · simp at e; rw [e.1]; exact hb
    · exact W.byte k' u e
  refine ⟨?_, ?_⟩
  · intro s
    by_cases hs : p <+: s ∧ s <+: k
    · rw [h2 s hs.1 hs.2, Px_cons]
      exact ⟨fun _ => Or.inr hs.2, fun _ => rfl⟩
    · by_cases e : s = k ++ [256]
      · subst e
        rw [h1]
        constructor
        · intro q; simp at q
        · rintro ⟨k', u, hm, q⟩
          have := hbb k' u hm 256 (q.subset (by simp)); omega
      · rw [h3 s hs e, hlow s hs]; exact C.inner s
  · intro s x
    by_cases hs : p <+: s ∧ s <+: k
    · rw [h2 s hs.1 hs.2]
      constructor
      · intro q; simp at q
      · rintro (⟨k', u, e, _⟩ | ⟨_, _, q⟩)
        · have := hb 256 (hs.2.subset (by rw [e]; simp)); omega
        · simp at q
    · by_cases e : s = k ++ [256]
      · subst e
        rw [h1]
        constructor
        · intro q; simp at q; exact Or.inl ⟨k, v, rfl, q.symm, by simp⟩
        · rintro (⟨k', u, e, hx, q⟩ | ⟨_, _, q⟩)
          · have : k = k' := by simpa using e
            subst this
            rcases List.mem_cons.mp q with w | w
            · simp at w; rw [hx, w]
            · exact absurd w (hn u)
          · simp at q
      · rw [h3 s hs e, C.leaf s x]
        constructor
        · rintro (⟨k', u, e, hx, q⟩ | ⟨rfl, _, q⟩)
          · exact Or.inl ⟨k', u, e, hx, by simp [q]⟩
          · -- the root was a leaf: then p is the root
            subst q
            exfalso
            rcases C.cases hp with ⟨_, _, q, _⟩ | ⟨_, _, _, q⟩ | q
            · simp at q
            · simp at q
            · subst q; exact hs ⟨List.prefix_rfl, List.nil_prefix⟩
        · rintro (⟨k', u, e', hx, q⟩ | ⟨_, _, q⟩)
          · rcases List.mem_cons.mp q with w | w
            · simp at w; rw [w.1] at e'; exact absurd e' e
            · exact Or.inl ⟨k', u, e', hx, w⟩
          · simp at q

theorem WF.filter (W : WF m) (k : List Nat) : WF (m.filter fun e => e.1 ≠ k) := by
  refine ⟨?_, ?_, ?_⟩
  · exact W.nd.sublist (List.filter_sublist.map _)
  · intro s u h; exact W.ne s u (List.mem_filter.mp h).1
  · intro s u h; exact W.byte s u (List.mem_filter.mp h).1

theorem filter_length (W : WF m) {k v} (hk : (k, v) ∈ m) :
    (m.filter fun e => e.1 ≠ k).length + 1 = m.length := by
  have := erase_length W hk
  unfold eraseLossy at this
  rwa [List.length_map] at this

theorem filter_absent {k} (hk : ∀ v, (k, v) ∉ m) : m.filter (fun e => e.1 ≠ k) = m := by
  rw [List.filter_eq_self]
  rintro ⟨a, b⟩ ha
  simp
  rintro rfl; exact hk _ ha

theorem mem_filter_key {k s u} : (s, u) ∈ m.filter (fun e => e.1 ≠ k) ↔ (s, u) ∈ m ∧ s ≠ k := by
  simp [List.mem_filter]

theorem SCanon.erase (C : SCanon T m) (W : WF m) {k v q k2 v2} (hk : (k, v) ∈ m)
    (hq : q <+: k) (hO : ∀ s, q <+: s → s ≠ q → s <+: k → ∀ k' u, (k', u) ∈ m → s <+: k' → k' = k)
    (hk2 : (k2, v2) ∈ m) (n2 : k2 ≠ k) (p2 : q <+: k2)
    (h1 : ∀ s, q <+: s → s ≠ q → s <+: k → T' s = none) (h0 : T' (k ++ [256]) = none)
    (h2 : ∀ s, ¬ (q <+: s ∧ s ≠ q ∧ s <+: k) → s ≠ k ++ [256] → T' s = T s) :
    SCanon T' (m.filter fun e => e.1 ≠ k) := by
  have hb := W.byte k v hk
  have hPx : ∀ s, ¬ (q <+: s ∧ s ≠ q ∧ s <+: k) → (Px (m.filter fun e => e.1 ≠ k) s ↔ Px m s) := by
    intro s hs
    constructor
    · rintro ⟨k', u, a, b⟩; exact ⟨k', u, (mem_filter_key.mp a).1, b⟩
    · rintro ⟨k', u, a, b⟩
      by_cases e : k' = k
      · subst e
        rcases List.prefix_or_prefix_of_prefix b hq with z | z
        · exact ⟨k2, v2, mem_filter_key.mpr ⟨hk2, n2⟩, z.trans p2⟩
        · have : s = q := Classical.byContradiction fun w => hs ⟨z, w, b⟩
          exact ⟨k2, v2, mem_filter_key.mpr ⟨hk2, n2⟩, this ▸ p2⟩
      · exact ⟨k', u, mem_filter_key.mpr ⟨a, e⟩, b⟩
  refine ⟨?_, ?_⟩
  · intro s
    by_cases hs : q <+: s ∧ s ≠ q ∧ s <+: k
    · rw [h1 s hs.1 hs.2.1 hs.2.2]
      constructor
      · intro z; simp at z
      · rintro ⟨k', u, a, b⟩
        have := mem_filter_key.mp a
        exact absurd (hO s hs.1 hs.2.1 hs.2.2 k' u this.1 b) this.2
    · by_cases e : s = k ++ [256]
      · subst e
        rw [h0]
        constructor
        · intro z; simp at z
        · rintro ⟨k', u, a, b⟩
          have := W.byte k' u (mem_filter_key.mp a).1 256 (b.subset (by simp)); omega
      · rw [h2 s hs e, hPx s hs]; exact C.inner s
  · intro s x
    have hne : m.filter (fun e => e.1 ≠ k) ≠ [] := by
      intro z
      have := mem_filter_key.mpr ⟨hk2, n2⟩
      rw [z] at this; simp at this
    by_cases hs : q <+: s ∧ s ≠ q ∧ s <+: k
    · rw [h1 s hs.1 hs.2.1 hs.2.2]
      constructor
      · intro z; simp at z
      · rintro (⟨k', u, e, _⟩ | ⟨_, _, z⟩)
        · have := hb 256 (hs.2.2.subset (by rw [e]; simp)); omega
        · exact absurd z hne
    · by_cases e : s = k ++ [256]
      · subst e
        rw [h0]
        constructor
        · intro z; simp at z
        · rintro (⟨k', u, e, hx, z⟩ | ⟨_, _, z⟩)
          · have : k = k' := by simpa using e
            exact absurd this.symm (mem_filter_key.mp z).2
          · exact absurd z hne
      · rw [h2 s hs e, C.leaf s x]
        constructor
        · rintro (⟨k', u, e', hx, z⟩ | ⟨_, _, z⟩)
          · refine Or.inl ⟨k', u, e', hx, mem_filter_key.mpr ⟨z, ?_⟩⟩
            rintro rfl; exact e e'
          · rw [z] at hk; simp at hk
        · rintro (⟨k', u, e', hx, z⟩ | ⟨_, _, z⟩)
          · exact Or.inl ⟨k', u, e', hx, (mem_filter_key.mp z).1⟩
          · exact absurd z hne

theorem SCanon.set (C : SCanon T m) (W : WF m) {k u v} (hk : (k, u) ∈ m)
    (h1 : T' (k ++ [256]) = some (.leaf (v : Nat))) (h2 : ∀ s, s ≠ k ++ [256] → T' s = T s) :
    SCanon T' (setMap m k v) := by
  have hkv : (k, v) ∈ setMap m k v := mem_set.mpr (Or.inl ⟨rfl, rfl, u, hk⟩)
  have Ws : WF (setMap m k v) := W.set
  have hPx : ∀ s, Px (setMap m k v) s ↔ Px m s := by
    intro s
    have gen : ∀ m : KMap, Px m s ↔ ∃ k ∈ m.map Prod.fst, s <+: k := by
      intro m
      simp only [Px, List.mem_map, Prod.exists, exists_and_right, exists_eq_right]
    rw [gen, gen, set_fst]
  have hne : m ≠ [] := by rintro rfl; simp at hk
  have hne' : setMap m k v ≠ [] := by intro q; rw [q] at hkv; simp at hkv
  refine ⟨?_, ?_⟩
  · intro s
    rw [hPx]
    by_cases e : s = k ++ [256]
    · subst e
      rw [h1]
      constructor
      · intro z; simp at z
      · rintro z; have := z.bytes W 256 (by simp); omega
    · rw [h2 s e]; exact C.inner s
  · intro s x
    by_cases e : s = k ++ [256]
    · subst e
      rw [h1]
      constructor
      · intro z; simp at z; exact Or.inl ⟨k, v, rfl, z.symm, hkv⟩
      · rintro (⟨k', w, e, hx, z⟩ | ⟨z, _⟩)
        · have : k = k' := by simpa using e
          subst this
          rw [hx, Ws.uniq z hkv]
        · simp at z
    · rw [h2 s e, C.leaf s x]
      constructor
      · rintro (⟨k', w, e', hx, z⟩ | ⟨_, _, z⟩)
        · refine Or.inl ⟨k', w, e', hx, mem_set.mpr (Or.inr ⟨?_, z⟩)⟩
          rintro rfl; exact e e'
        · exact absurd z hne
      · rintro (⟨k', w, e', hx, z⟩ | ⟨_, _, z⟩)
        · rcases mem_set.mp z with y | y
          · rw [y.1] at e'; exact absurd e' e
          · exact Or.inl ⟨k', w, e', hx, y.2⟩
        · exact absurd z hne'

end

section
variable {h : Heap} {F : Nat → Prop} {m : KMap}

theorem srep_empty : SRep Heap.empty (fun _ => False) [] := by
  refine ⟨inv_empty, ⟨by simp, by simp, by simp⟩, rfl, ?_⟩
  refine ⟨?_, ?_⟩
  · intro s
    rw [tr_empty]
    constructor
    · intro h; split at h <;> simp at h
    · rintro ⟨_, _, h, _⟩; simp at h
  · intro s x
    rw [tr_empty]
    constructor
    · intro h
      split at h
      · simp at h; exact Or.inr ⟨by assumption, h.symm, rfl⟩
      · simp at h
    · rintro (⟨_, _, _, _, h⟩ | ⟨a, b, _⟩)
      · simp at h
      · simp [a, b]

theorem SRep.hasNull (R : SRep h F m) {q i} (hw : walk h 1 q = some i) :
    ∃ r, hasNull h i = some r ∧ (r = true ↔ ∃ v, (q, v) ∈ m) := by
  refine ⟨_, hasNull_spec R.I (R.I.root_used hw), ?_⟩
  rw [child_isSome_tr hw, R.C.null R.W]

theorem SRep.lookup (R : SRep h F m) {k} (hb : ∀ b ∈ k, b < 256) :
    ∃ i p r, skipLoop h 1 k = some (i, r) ∧ k = p ++ r ∧ walk h 1 p = some i ∧
      (∀ l ls, r = l :: ls → tr h (p ++ [l]) = none) := by
  obtain ⟨i, p, r, a, b, c, d⟩ := skip_spec R.I k [] 1 rfl (fun b m => by have := hb b m; omega)
  exact ⟨i, p, r, a, b, by simpa using c, by simpa using d⟩

theorem SRep.not_mem_of_rest (R : SRep h F m) {p l ls} (hn : tr h (p ++ [l]) = none) (v : Nat) :
    (p ++ l :: ls, v) ∉ m := by
  intro hm
  have : tr h (p ++ [l]) ≠ none := R.C.of_px ⟨_, v, hm, ls, by simp⟩
  exact this hn

theorem SRep.find (R : SRep h F m) {k} (hb : ∀ b ∈ k, b < 256) :
    (∃ v i, (k, v) ∈ m ∧ walk h 1 k = some i ∧ 2 ≤ i ∧ Stable.find h k = some i) ∨
    ((∀ v, (k, v) ∉ m) ∧ Stable.find h k = some 0) := by
  obtain ⟨i, p, r, e, hk, hw, hn⟩ := R.lookup hb
  unfold Stable.find
  rw [e]
  simp only [Option.bind_some]
  cases r with
  | nil =>
    simp only [List.append_nil] at hk
    subst hk
    obtain ⟨t, et, ht⟩ := R.hasNull hw
    simp only [if_true, et, Option.map_some]
    cases t with
    | true =>
      left
      obtain ⟨v, hv⟩ := ht.mp rfl
      refine ⟨v, i, hv, hw, ?_, rfl⟩
      have h1 := ((R.I.root_used hw).lt R.I.fl).1
      have : i ≠ 1 := by
        rintro rfl
        exact R.W.ne k v hv (R.I.walk_inj hw rfl)
      omega
    | false =>
      right
      refine ⟨fun v hv => ?_, rfl⟩
      have := ht.mpr ⟨v, hv⟩
      simp at this
  | cons l ls =>
    right
    refine ⟨fun v => ?_, by simp⟩
    rw [hk]
    exact R.not_mem_of_rest (hn l ls rfl) v

theorem SRep.contains (R : SRep h F m) {k} (hb : ∀ b ∈ k, b < 256) :
    Stable.contains h k = some (KeyMap.get m k).isSome := by
  obtain ⟨i, p, r, e, hk, hw, hn⟩ := R.lookup hb
  unfold Stable.contains
  rw [e]
  simp only [Option.bind_some]
  cases r with
  | nil =>
    simp only [List.append_nil] at hk
    subst hk
    obtain ⟨t, et, ht⟩ := R.hasNull hw
    simp only [if_true, et, Option.some.injEq]
    cases hg : KeyMap.get m k with
    | none =>
      cases t with
      | false => rfl
      | true => obtain ⟨v, hv⟩ := ht.mp rfl; exact absurd hv (get_none.mp hg v)
    | some v => rw [ht.mpr ⟨v, (get_some R.W).mp hg⟩]; rfl
  | cons l ls =>
    have : KeyMap.get m k = none := by
      rw [get_none, hk]; exact R.not_mem_of_rest (hn l ls rfl)
    simp [this]

/-- Insertion; the last clause: only children of the last node of the path that existed move. -/
theorem SRep.insert (R : SRep h F m) {k : List Nat} {v : Nat} (hk : k ≠ [])
    (hb : ∀ b ∈ k, b < 256) (hv : v ≤ 2147483647) :
    ∃ h' F' i, Stable.insertKey h k v = some (h', i) ∧
      SRep h' F' (if (KeyMap.get m k).isSome = true then m else (k, v) :: m) ∧
      walk h' 1 k = some i ∧
      (∀ s j, walk h 1 s = some j → (∀ p l, p <+: k → s ≠ p ++ [l]) → walk h' 1 s = some j) := by
  obtain ⟨i, p, r, e1, hkp, hw, hnone⟩ := R.lookup hb
  unfold Stable.insertKey
  rw [if_pos (show v ≤ valueMax from hv), if_neg hk, e1]
  simp only [Option.bind_some]
  have hpb : ∀ b ∈ p, b < 256 := fun b h => hb b (by rw [hkp]; simp [h])
  have hpk : p <+: k := hkp ▸ List.prefix_append _ _
  obtain ⟨hn, en, hn'⟩ := R.hasNull hw
  rw [en]
  simp only [Option.bind_some]
  by_cases hmem : ∃ u, (k, u) ∈ m
  · obtain ⟨u, hu⟩ := hmem
    have hr : r = [] := by
      cases r with
      | nil => rfl
      | cons l ls => rw [hkp] at hu; exact absurd hu (R.not_mem_of_rest (hnone l ls rfl) u)
    subst hr
    simp only [List.append_nil] at hkp
    subst hkp
    rw [if_neg (by simp [hn'.mpr ⟨u, hu⟩])]
    refine ⟨h, F, i, rfl, ?_, hw, fun s j q _ => q⟩
    rw [(get_some R.W).mpr hu]; simpa using R
  · have hkn : ∀ u, (k, u) ∉ m := fun u w => hmem ⟨u, w⟩
    rw [if_pos]
    swap
    · by_cases hr : r = []
      · left
        subst hr
        simp only [List.append_nil] at hkp
        subst hkp
        cases hn with
        | false => rfl
        | true => exact absurd (hn'.mp rfl) hmem
      · exact Or.inr hr
    have hTp : tr h p ≠ none := by rw [tr_of_walk hw]; simp
    -- the chain
    have hchain : ∃ h1 F1 b j, chainLoop h 0 i r = some (h1, b, j) ∧ Inv h1 F1 ∧
        h1.base 0 = h.base 0 ∧ walk h1 1 k = some j ∧ tr h1 (k ++ [256]) = none ∧
        (tr h1 k = some .inner → ∃ l', tr h1 (k ++ [l']) ≠ none) ∧
        (∀ s, p <+: s → s <+: k → s ≠ k → tr h1 s = some .inner) ∧
        (∀ s, ¬ (p <+: s ∧ s <+: k) → tr h1 s = tr h s) ∧
        (∀ s j, walk h 1 s = some j → (∀ l', s ≠ p ++ [l']) → walk h1 1 s = some j) := by
      cases r with
      | nil =>
        simp only [List.append_nil] at hkp
        subst hkp
        refine ⟨h, F, 0, i, rfl, R.I, rfl, hw, ?_, fun q => R.C.full q, ?_, fun _ _ => rfl,
          fun _ _ q _ => q⟩
        · cases hT : tr h (k ++ [256]) with
          | none => rfl
          | some y => exact absurd ((R.C.null R.W).mp (by rw [hT]; simp)) hmem
        · intro s a b c
          exact absurd (b.eq_of_length_le a.length_le) c
      | cons l ls =>
        obtain ⟨h2, F2, b, j, e2, I2, s2, c0, c1, c2, c3, c4, c5⟩ := chain_spec ls l h F 0 i p R.I hw
          (fun b hm => by have := hb b (by rw [hkp]; simp at hm ⊢; tauto); omega)
          (hnone l ls rfl) (fun q => R.C.full q)
        rw [← hkp] at c1 c2 c3 c4
        exact ⟨h2, F2, b, j, e2, I2, s2, c1, tr_leaf_child c2, by rw [c2]; simp, c3, c4, c5⟩
    obtain ⟨h1, F1, b, j, e2, I1, s1, w1, n1, f1, t1, t2, mv1⟩ := hchain
    rw [e2]
    simp only [Option.bind_some]
    have hj : j ≠ 1 := by
      rintro rfl
      exact hk (I1.walk_inj w1 (by rfl))
    rw [if_pos hj]
    obtain ⟨h2, F2, nb, e3, I2, s2, w2, w3, nb0, t3, mv2⟩ := add_one I1 w1 (l := 256) (by omega) f1
    have hleaf : tr h2 (k ++ [256]) = some (.leaf 0) := by
      rw [t3, if_neg (by simp), if_pos ⟨rfl, n1⟩]
    obtain ⟨h3, e4, I3, s3, w4, t4⟩ := setB_spec I2 w3 (v := -(v : Int)) (by omega)
      (no_child_of_leaf w3 hleaf)
    obtain ⟨h4, e5, I4, s4, w5, t5⟩ := setSize_spec I3 (h3.base 0 + 1)
    refine ⟨h4, F2, j, ?_, ?_, by rw [w5, w4]; exact w2, ?_⟩
    · simp only [nullValue, e3, Option.bind_some, e4, bump, e5]
    · rw [get_none.mpr hkn]
      simp only [Option.isSome_none, Bool.false_eq_true, if_false]
      refine ⟨I4, R.W.cons hk hb hkn, ?_, ?_⟩
      · rw [s4, s3, s2, s1, R.size]; simp
      · refine R.C.insert R.W hb hkn hkp hTp ?_ ?_ ?_
        · rw [t5, t4, if_pos rfl]; simp
        · intro s a b
          have hs : s ≠ k ++ [256] := by
            rintro rfl
            have := hb 256 (b.subset (by simp)); omega
          rw [t5, t4, if_neg hs, t3]
          by_cases e : s = k
          · rw [if_pos e]
          · rw [if_neg e, if_neg (fun z => hs z.1)]
            exact t1 s a b e
        · intro s a b
          have hs : s ≠ k := by rintro rfl; exact a ⟨hpk, List.prefix_rfl⟩
          rw [t5, t4, if_neg b, t3, if_neg hs, if_neg (fun z => b z.1)]
          exact t2 s a
    · intro s j' hs hp'
      rw [w5, w4]
      exact mv2 s j' (mv1 s j' hs (fun l' => hp' p l' hpk)) (fun l' => hp' k l' List.prefix_rfl)

theorem sEraseLoop_spec {T : Tree} (C : SCanon T m) (W : WF m) {k v} (hk : (k, v) ∈ m) :
    ∀ (n : Nat) (q : List Nat) (h : Heap) (F : Nat → Prop) (i : Nat), q.length < n → Inv h F →
      walk h 1 q = some i → q <+: k →
      (∀ s, q <+: s → s ≠ q → s <+: k → ∀ k' u, (k', u) ∈ m → s <+: k' → k' = k) →
      (∀ s, q <+: s → s ≠ q → s <+: k → tr h s = none) → tr h (k ++ [256]) = none →
      (∀ s, ¬ (q <+: s ∧ s ≠ q ∧ s <+: k) → s ≠ k ++ [256] → tr h s = T s) →
      ∃ h' F', Stable.eraseLoop n h i = some h' ∧ Inv h' F' ∧ h'.base 0 = h.base 0 ∧
        ((∀ k' u, (k', u) ∈ m → k' = k) ∨ SCanon (tr h') (m.filter fun e => e.1 ≠ k)) ∧
        (∀ s j, walk h 1 s = some j → ¬ (s <+: k) → walk h' 1 s = some j) := by
  intro n
  induction n with
  | zero => intro q h F i hq; omega
  | succ n ih =>
    intro q h F i hn I hw hqk hO t1 t0 t2
    have hb := W.byte k v hk
    have hqb : ∀ b ∈ q, b < 256 := fun b hm => hb b (hqk.subset hm)
    have u := I.root_used hw
    rw [Stable.eraseLoop]
    by_cases hq0 : q = []
    · subst hq0
      have hi : i = 1 := by simpa [walk] using hw.symm
      rw [if_pos hi]
      refine ⟨h, F, rfl, I, rfl, ?_, fun _ _ z _ => z⟩
      by_cases hall : ∀ k' u, (k', u) ∈ m → k' = k
      · exact Or.inl hall
      · right
        simp only [not_forall] at hall
        obtain ⟨k2, v2, a, b⟩ := hall
        exact C.erase W hk hqk hO a b List.nil_prefix t1 t0 t2
    · have hi : i ≠ 1 := by
        rintro rfl
        exact hq0 (I.walk_inj hw (by rfl))
      rw [if_neg hi, hasNull_spec I u]
      obtain ⟨hc, ec, hc'⟩ := hasChild_spec I u
      simp only [Option.bind_some, ec]
      by_cases hN : (child h i 256).isSome = true
      · rw [if_neg (by simp [hN])]
        have h1 := (child_isSome_tr hw).mp hN
        have hqne : q ≠ k := by
          rintro rfl; exact h1 t0
        rw [t2 _ (by
          rintro ⟨_, _, w⟩
          have := hb 256 (w.subset (by simp)); omega) (by simpa using hqne)] at h1
        obtain ⟨w, hqm⟩ := (C.null W).mp h1
        exact ⟨h, F, rfl, I, rfl, Or.inr (C.erase W hk hqk hO hqm hqne List.prefix_rfl t1 t0 t2),
          fun _ _ z _ => z⟩
      · have h256n : tr h (q ++ [256]) = none := by
          cases hT : tr h (q ++ [256]) with
          | none => rfl
          | some y => exact absurd ((child_isSome_tr hw).mpr (by rw [hT]; simp)) hN
        cases hc with
        | true =>
          rw [if_neg (by simp)]
          obtain ⟨l, hl, hcl⟩ := hc'.mp rfl
          have h1 := (child_isSome_tr hw).mp hcl
          have hnk : ¬ (q ++ [l] <+: k) := by
            intro w
            exact h1 (t1 _ (List.prefix_append _ _) (by simp) w)
          have hne : q ++ [l] ≠ k ++ [256] := by
            intro w
            have := List.append_inj_right' w rfl
            simp at this; omega
          rw [t2 _ (fun z => hnk z.2.2) hne] at h1
          have hbl : ∀ b ∈ q ++ [l], b < 256 := by
            intro b hm; simp at hm; rcases hm with hm | hm
            · exact hqb b hm
            · omega
          obtain ⟨k2, v2, g1, g2⟩ := (C.node hbl (by simp)).mp h1
          have n2 : k2 ≠ k := by rintro rfl; exact hnk g2
          exact ⟨h, F, rfl, I, rfl, Or.inr (C.erase W hk hqk hO g1 n2
            ((List.prefix_append _ _).trans g2) t1 t0 t2), fun _ _ z _ => z⟩
        | false =>
          have hNf : (child h i 256).isSome = false := by simpa using hN
          rw [if_pos ⟨hNf, rfl⟩]
          have hno : ∀ l, l < 256 → tr h (q ++ [l]) = none := by
            intro l hl
            cases hT : tr h (q ++ [l]) with
            | none => rfl
            | some y =>
              have := hc'.mpr ⟨l, hl, (child_isSome_tr hw).mpr (by rw [hT]; simp)⟩
              simp at this
          have hchild := child_none_of I hw hno h256n
          have hO' : ∀ k' u, (k', u) ∈ m → q <+: k' → k' = k := by
            intro k' u' a b
            obtain ⟨t, rfl⟩ := b
            cases t with
            | nil =>
              simp only [List.append_nil] at a ⊢
              apply Classical.byContradiction
              intro hne
              have h1 := (C.null W).mpr ⟨u', a⟩
              rw [← t2 _ (by
                rintro ⟨_, _, w⟩
                have := hb 256 (w.subset (by simp)); omega) (by simpa using hne)] at h1
              exact h1 h256n
            | cons l t =>
              have hl : l < 256 := W.byte _ _ a l (by simp)
              have hpx : Px m (q ++ [l]) := ⟨_, u', a, t, by simp⟩
              have hlk : q ++ [l] <+: k := by
                apply Classical.byContradiction
                intro hnk
                have hne : q ++ [l] ≠ k ++ [256] := by
                  intro w
                  have := List.append_inj_right' w rfl
                  simp at this; omega
                have h1 := C.of_px hpx
                rw [← t2 _ (fun z => hnk z.2.2) hne] at h1
                exact h1 (hno l hl)
              exact hO _ (List.prefix_append _ _) (by simp) hlk _ u' a ⟨t, by simp⟩
          have hlt := u.lt I.fl
          rcases List.eq_nil_or_concat q with rfl | ⟨q0, l, hqe⟩
          · exact absurd rfl hq0
          · have hqe : q = q0 ++ [l] := by simpa using hqe
            subst hqe
            have hw0 := hw
            rw [walk_snoc] at hw0
            cases hp : walk h 1 q0 with
            | none => rw [hp] at hw0; simp at hw0
            | some p =>
            rw [hp] at hw0
            simp only [Option.bind_some] at hw0
            have up := I.root_used hp
            obtain ⟨ui, i2, ci⟩ := I.child_used up hw0
            obtain ⟨h1, b', e1, I1, s1, bs1, w1, r1⟩ := free_spec I hw (by omega) hchild
            have hp1 : walk h1 1 q0 = some p := by rw [w1, if_neg (by simp)]; exact hp
            simp only [Option.bind_some, rdC, hlt.2, if_true, ci, e1]
            have hp0 : (0 : Int) ≤ p := by omega
            simp only [hp0, if_true, Int.toNat_natCast]
            have hbetween : ∀ s, q0 <+: s → s ≠ q0 → s <+: k → q0 ++ [l] <+: s := by
              intro s a b c
              obtain ⟨t, ht⟩ := hqk
              rcases prefix_cases (p := q0) (l := l) (ls := t) (by simp [← ht]) c with z | z
              · exact absurd (z.eq_of_length_le a.length_le) b
              · exact z
            obtain ⟨h2, F2, e2, I2, s2, r, mv⟩ := ih q0 h1 _ p (by simp at hn; omega) I1 hp1
              ((List.prefix_append _ _).trans hqk)
              (by
                intro s a b c k' u' a' b'
                exact hO' k' u' a' ((hbetween s a b c).trans b'))
              (by
                intro s a b c
                rw [r1]; split
                · rfl
                · exact t1 s (hbetween s a b c) (by assumption) c)
              (by rw [r1]; split; rfl; exact t0)
              (by
                intro s a b
                rw [r1, if_neg]
                · apply t2 s _ b
                  rintro ⟨z1, z2, z3⟩
                  refine a ⟨(List.prefix_append _ _).trans z1, ?_, z3⟩
                  rintro rfl
                  have := z1.length_le; simp at this; omega
                · rintro rfl
                  exact a ⟨List.prefix_append _ _, by simp, hqk⟩)
            refine ⟨h2, F2, e2, I2, s2.trans s1, r, ?_⟩
            intro s j hs hsk
            apply mv s j _ hsk
            rw [w1, if_neg]
            · exact hs
            · rintro rfl; exact hsk hqk

theorem SRep.erase (R : SRep h F m) {k} (hb : ∀ b ∈ k, b < 256) :
    ∃ h' F', Stable.eraseKey h k = some h' ∧ SRep h' F' (m.filter fun e => e.1 ≠ k) ∧
      (∀ s j, m.filter (fun e => e.1 ≠ k) ≠ [] → walk h 1 s = some j → ¬ (s <+: k) → s ≠ k ++ [256] →
        walk h' 1 s = some j) := by
  unfold Stable.eraseKey
  rcases R.find hb with ⟨v, i, hk, hw, i2, ef⟩ | ⟨hk, ef⟩
  · rw [ef]
    simp only [Option.bind_some, Stable.eraseAt]
    have hlt := (R.I.root_used hw).lt R.I.fl
    have hN : (child h i 256).isSome = true :=
      (child_isSome_tr hw).mpr ((R.C.null R.W).mpr ⟨v, hk⟩)
    rw [if_pos hlt.2, if_neg (by omega), hasNull_spec R.I (R.I.root_used hw)]
    simp only [Option.bind_some]
    rw [if_neg (by simp [hN]), rdB, if_pos hlt.2]
    obtain ⟨j, hj⟩ := Option.isSome_iff_exists.mp hN
    obtain ⟨b, eb, b1, _, bl, bc, rfl⟩ := child_eq_some.mp hj
    have hw2 : walk h 1 (k ++ [256]) = some (b + 256) := by rw [walk_snoc, hw]; exact hj
    have hleaf : tr h (k ++ [256]) = some (.leaf v) :=
      (R.C.leaf _ _).mpr (Or.inl ⟨k, v, rfl, rfl, hk⟩)
    obtain ⟨h0, b', e0, I0, s0, bs0, w0, r0⟩ := free_spec R.I hw2 (by omega)
      (no_child_of_leaf hw2 hleaf)
    simp only [Option.bind_some, eb, Int.toNat_natCast, nullValue, e0]
    have hw3 : walk h0 1 k = some i := by rw [w0, if_neg (by simp)]; exact hw
    obtain ⟨h1, F1, e1, I1, s1, hr, mv⟩ := sEraseLoop_spec R.C R.W hk h.len k h0 _ i (R.I.depth hw) I0 hw3
      List.prefix_rfl
      (by intro s a b c; exact absurd (c.eq_of_length_le a.length_le) b)
      (by intro s a b c; exact absurd (c.eq_of_length_le a.length_le) b)
      (by rw [r0, if_pos rfl])
      (by intro s _ b; rw [r0, if_neg b])
    obtain ⟨h2, e2, I2, s2, w2, t2⟩ := setSize_spec I1 (h1.base 0 + -1)
    have hlen := filter_length R.W hk
    have hsz : h2.base 0 = (m.filter fun e => e.1 ≠ k).length := by
      rw [s2, s1, s0, R.size]; omega
    simp only [e1, Option.bind_some, bump, e2]
    by_cases hz : h2.base 0 = 0
    · rw [if_pos hz]
      have : m.filter (fun e => e.1 ≠ k) = [] := List.length_eq_zero_iff.mp (by omega)
      rw [this]
      exact ⟨_, _, rfl, srep_empty, fun _ _ z => absurd rfl z⟩
    · rw [if_neg hz]
      refine ⟨h2, F1, rfl, ⟨I2, R.W.filter k, hsz, ?_⟩, ?_⟩
      · rcases hr with q | q
        · exfalso
          apply hz
          rw [hsz]
          have : m.filter (fun e => e.1 ≠ k) = [] := by
            rw [List.filter_eq_nil_iff]
            rintro ⟨k', u⟩ hm
            simp [q k' u hm]
          rw [this]; rfl
        · exact q.congr t2
      · intro s j _ hs hsk hs2
        rw [w2]
        apply mv s j _ hsk
        rw [w0, if_neg hs2]; exact hs
  · rw [ef, filter_absent hk]
    have hp := R.I.fl.pos
    refine ⟨h, F, ?_, R, fun _ _ _ z _ _ => z⟩
    simp only [Option.bind_some, Stable.eraseAt]
    rw [if_pos (by omega), if_pos (by omega)]

theorem SRep.valueNode (R : SRep h F m) {k v i} (hk : (k, v) ∈ m) (hw : walk h 1 k = some i) :
    ∃ j, Stable.valueIndex h i = some j ∧ walk h 1 (k ++ [256]) = some j ∧
      tr h (k ++ [256]) = some (.leaf (v : Nat)) := by
  have hlt := (R.I.root_used hw).lt R.I.fl
  have hleaf : tr h (k ++ [256]) = some (.leaf v) :=
    (R.C.leaf _ _).mpr (Or.inl ⟨k, v, rfl, rfl, hk⟩)
  have hN : (child h i 256).isSome = true := (child_isSome_tr hw).mpr (by rw [hleaf]; simp)
  obtain ⟨j, hj⟩ := Option.isSome_iff_exists.mp hN
  obtain ⟨b, eb, b1, _, bl, bc, rfl⟩ := child_eq_some.mp hj
  unfold Stable.valueIndex
  rw [rdB, if_pos hlt.2]
  simp only [Option.bind_some, eb]
  have hnv : (nullValue : Int) = 256 := rfl
  refine ⟨b + 256, ?_, ?_, hleaf⟩
  · rw [if_pos (by omega)]
    congr 1
  · rw [walk_snoc, hw]
    exact hj

theorem SRep.atKey (R : SRep h F m) {k} (hb : ∀ b ∈ k, b < 256) :
    Stable.atKey h k = some ((KeyMap.get m k).map Int.ofNat) := by
  unfold Stable.atKey
  rcases R.find hb with ⟨v, i, hk, hw, i2, ef⟩ | ⟨hk, ef⟩
  · obtain ⟨j, ej, hj, hl⟩ := R.valueNode hk hw
    rw [ef]
    simp only [Option.bind_some]
    rw [if_neg (by omega), ej]
    have hlt := (R.I.root_used hj).lt R.I.fl
    have hv := tr_leaf_base hj hl
    simp only [Option.bind_some, Base.readValue]
    rw [rdB, if_pos hlt.2]
    simp only [Option.bind_some]
    rw [if_pos (by omega), (get_some R.W).mpr hk]
    simp [hv.1]
  · rw [ef, get_none.mpr hk]; simp

theorem SRep.terminator (R : SRep h F m) {k} (hb : ∀ b ∈ k, b < 256) :
    Stable.terminator h k = some (if (KeyMap.get m k).isSome = true then walk h 1 (k ++ [256]) else none) := by
  unfold Stable.terminator
  rcases R.find hb with ⟨v, i, hk, hw, i2, ef⟩ | ⟨hk, ef⟩
  · obtain ⟨j, ej, hj, hl⟩ := R.valueNode hk hw
    rw [ef]
    simp only [Option.bind_some]
    rw [if_neg (by omega), ej, (get_some R.W).mpr hk, hj]; rfl
  · rw [ef, get_none.mpr hk]; simp

theorem SRep.write (R : SRep h F m) {k u i j} {v : Nat} (hk : (k, u) ∈ m) (hw : walk h 1 k = some i)
    (hj : Stable.valueIndex h i = some j) :
    ∃ h', wrB h j (-(v : Int)) = some h' ∧ SRep h' F (setMap m k v) ∧
      ∀ s, walk h' 1 s = walk h 1 s := by
  obtain ⟨j', ej, hj', hl⟩ := R.valueNode hk hw
  rw [hj] at ej
  obtain rfl : j = j' := by simpa using ej
  obtain ⟨h1, e1, I1, s1, w1, t1⟩ := setB_spec R.I hj' (v := -(v : Int)) (by omega)
    (no_child_of_leaf hj' hl)
  refine ⟨h1, e1, ⟨I1, R.W.set, ?_, ?_⟩, w1⟩
  · rw [s1, R.size]; simp [setMap]
  · exact R.C.set R.W hk (by rw [t1, if_pos rfl]; simp) (fun s hs => by rw [t1, if_neg hs])

theorem SRep.setKey (R : SRep h F m) {k} {v : Nat} (hb : ∀ b ∈ k, b < 256) :
    ∃ h', Stable.setKey h k v = some (h', (KeyMap.get m k).isNone) ∧ SRep h' F (setMap m k v) ∧
      ∀ s, walk h' 1 s = walk h 1 s := by
  unfold Stable.setKey
  rcases R.find hb with ⟨u, i, hk, hw, i2, ef⟩ | ⟨hk, ef⟩
  · obtain ⟨j, ej, _, _⟩ := R.valueNode hk hw
    obtain ⟨h1, e1, R1, w1⟩ := R.write (v := v) hk hw ej
    refine ⟨h1, ?_, R1, w1⟩
    rw [ef]
    simp only [Option.bind_some]
    rw [if_neg (by omega), ej, (get_some R.W).mpr hk]
    simp [e1]
  · refine ⟨h, ?_, by rw [set_absent hk]; exact R, fun _ => rfl⟩
    rw [ef, get_none.mpr hk]; simp

theorem SRep.indexSet (R : SRep h F m) {k} {v : Nat} (hb : ∀ b ∈ k, b < 256) (h0 : k ≠ []) :
    ∃ h' F', Stable.indexSet h k v = some h' ∧
      SRep h' F' (setMap (if (KeyMap.get m k).isSome = true then m else (k, 0) :: m) k v) := by
  unfold Stable.indexSet
  rcases R.find hb with ⟨u, i, hk, hw, i2, ef⟩ | ⟨hk, ef⟩
  · obtain ⟨j, ej, _, _⟩ := R.valueNode hk hw
    obtain ⟨h1, e1, R1, _⟩ := R.write (v := v) hk hw ej
    refine ⟨h1, F, ?_, ?_⟩
    · rw [ef]
      simp only [Option.bind_some]
      rw [if_neg (by omega)]
      simp only [Option.bind_some, ej, e1]
    · rw [(get_some R.W).mpr hk]; simpa using R1
  · obtain ⟨h1, F1, i, e1, R1, hw, _⟩ := R.insert (v := 0) h0 hb (by omega)
    have hmem : (k, 0) ∈ (if (KeyMap.get m k).isSome = true then m else (k, 0) :: m) := by
      rw [get_none.mpr hk]; simp
    obtain ⟨j, ej, _, _⟩ := R1.valueNode hmem hw
    obtain ⟨h2, e2, R2, _⟩ := R1.write (v := v) hmem hw ej
    refine ⟨h2, F1, ?_, R2⟩
    rw [ef]
    simp only [Option.bind_some, if_true, e1, ej, e2]

end

end Verif.Proof.Trie
