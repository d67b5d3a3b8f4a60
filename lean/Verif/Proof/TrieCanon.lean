import Verif.Proof.TrieTree
import Verif.Spec.KeyMap
import Mathlib.Data.List.Infix

/-!
The tree that `trie_base` keeps for a finite map, and how inserting and erasing changes it.
-/
namespace Verif.Proof.Trie
open Verif.Spec Verif.Model.Trie Verif.Spec.KeyMap

abbrev Tree := List Nat → Option Kind

/-- Some key properly extends `s`. -/
def Ex (m : KMap) (s : List Nat) : Prop := ∃ k v, (k, v) ∈ m ∧ s <+: k ∧ s ≠ k

structure WF (m : KMap) : Prop where
  nd : (m.map Prod.fst).Nodup
  ne : ∀ k v, (k, v) ∈ m → k ≠ []
  byte : ∀ k v, (k, v) ∈ m → ∀ b ∈ k, b < 256

def LeafOf (m : KMap) (s : List Nat) (x : Int) : Prop :=
  (∃ v : Nat, x = v ∧ (s, v) ∈ m ∧ ¬ Ex m s) ∨
  (∃ k, ∃ v : Nat, s = k ++ [256] ∧ x = v ∧ (k, v) ∈ m ∧ Ex m k) ∨
  (s = [] ∧ x = 0 ∧ m = [])

structure Canon (T : Tree) (m : KMap) : Prop where
  inner : ∀ s, T s = some .inner ↔ Ex m s
  leaf : ∀ s x, T s = some (.leaf x) ↔ LeafOf m s x

theorem WF.uniq {m} (W : WF m) {k v u} (h1 : (k, v) ∈ m) (h2 : (k, u) ∈ m) : v = u := by
  have nd := W.nd
  clear W
  induction m with
  | nil => simp at h1
  | cons e m ih =>
    simp only [List.map_cons, List.nodup_cons, List.mem_map, not_exists, not_and] at nd
    rcases List.mem_cons.mp h1 with a | a <;> rcases List.mem_cons.mp h2 with b | b
    · rw [← a] at b; simpa using b.symm
    · exact absurd (by rw [← a]) (nd.1 _ b)
    · exact absurd (by rw [← b]) (nd.1 _ a)
    · exact ih a b nd.2

theorem get_some {m : KMap} {k v} (W : WF m) : KeyMap.get m k = some v ↔ (k, v) ∈ m := by
  unfold KeyMap.get
  constructor
  · intro h
    cases hf : m.find? (fun e => e.1 = k) with
    | none => simp [hf] at h
    | some e =>
      simp [hf] at h
      have h1 := List.find?_some hf
      have h2 := List.mem_of_find?_eq_some hf
      simp at h1
      rw [← h1, ← h]; exact h2
  · intro h
    cases hf : m.find? (fun e => e.1 = k) with
    | none =>
      have := List.find?_eq_none.mp hf _ h
      simp at this
    | some e =>
      have h1 := List.find?_some hf
      have h2 := List.mem_of_find?_eq_some hf
      simp at h1
      subst h1
      simp [W.uniq h h2]

theorem get_none {m : KMap} {k} : KeyMap.get m k = none ↔ ∀ v, (k, v) ∉ m := by
  unfold KeyMap.get
  simp only [Option.map_eq_none_iff, List.find?_eq_none]
  constructor
  · intro h v hm; have := h _ hm; simp at this
  · rintro h ⟨k', v⟩ hm
    simp; rintro rfl; exact h v hm

section
variable {T : Tree} {m : KMap}

theorem Ex.mono {s t} (h : Ex m t) (hp : s <+: t) : Ex m s := by
  obtain ⟨k, v, hm, a, b⟩ := h
  refine ⟨k, v, hm, hp.trans a, ?_⟩
  rintro rfl
  exact b (a.eq_of_length_le (hp.length_le))

theorem prefix_cases {s k : List Nat} {l : Nat} {ls p : List Nat} (hk : k = p ++ l :: ls)
    (hs : s <+: k) : s <+: p ∨ p ++ [l] <+: s := by
  have hp : p ++ [l] <+: k := by subst hk; exact ⟨ls, by simp⟩
  rcases List.prefix_or_prefix_of_prefix hs hp with h | h
  · by_cases e : s = p ++ [l]
    · right; rw [e]
    · left
      exact (List.prefix_concat_iff.mp h).resolve_left e
  · exact Or.inr h

theorem Canon.cases (C : Canon T m) {s} (h : T s ≠ none) :
    Ex m s ∨ (∃ v, (s, v) ∈ m) ∨ (∃ k, ∃ v, s = k ++ [256] ∧ (k, v) ∈ m ∧ Ex m k) ∨ s = [] := by
  cases hT : T s with
  | none => exact absurd hT h
  | some k =>
    cases k with
    | inner => exact Or.inl ((C.inner s).mp hT)
    | leaf x =>
      rcases (C.leaf s x).mp hT with ⟨v, _, a, _⟩ | ⟨k, v, a, _, b, c⟩ | ⟨a, _⟩
      · exact Or.inr (Or.inl ⟨v, a⟩)
      · exact Or.inr (Or.inr (Or.inl ⟨k, v, a, b, c⟩))
      · exact Or.inr (Or.inr (Or.inr a))

theorem Canon.of_key (C : Canon T m) {s v} (h : (s, v) ∈ m) : T s ≠ none := by
  by_cases e : Ex m s
  · rw [(C.inner s).mpr e]; simp
  · rw [(C.leaf s v).mpr (Or.inl ⟨v, rfl, h, e⟩)]; simp

theorem Canon.root (C : Canon T m) (W : WF m) : T [] ≠ none := by
  cases m with
  | nil => rw [(C.leaf [] 0).mpr (Or.inr (Or.inr ⟨rfl, rfl, rfl⟩))]; simp
  | cons e m =>
    obtain ⟨k, v⟩ := e
    have := W.ne k v (by simp)
    rw [(C.inner []).mpr ⟨k, v, by simp, List.nil_prefix, this.symm⟩]; simp

theorem bytes_not_null {s k : List Nat} (hb : ∀ b ∈ s, b < 256) : s ≠ k ++ [256] := by
  rintro rfl; have := hb 256 (by simp); omega

theorem Ex.bytes (W : WF m) {s} (h : Ex m s) : ∀ b ∈ s, b < 256 := by
  obtain ⟨k, v, hm, a, _⟩ := h
  intro b hb
  exact W.byte k v hm b (a.subset hb)

/-- Ancestors of a node are inner. -/
theorem Canon.down (C : Canon T m) {s t} (h : T s ≠ none) (hp : t <+: s)
    (hne : t ≠ s) : Ex m t := by
  rcases C.cases h with q | ⟨v, q⟩ | ⟨k, v, rfl, q, e⟩ | rfl
  · exact q.mono hp
  · exact ⟨s, v, q, hp, hne⟩
  · exact e.mono ((List.prefix_concat_iff.mp hp).resolve_left hne)
  · exact absurd (List.prefix_nil.mp hp) hne

theorem Canon.mem_of_node (C : Canon T m) {s} (hb : ∀ b ∈ s, b < 256) (hs : s ≠ []) :
    T s ≠ none ↔ Ex m s ∨ ∃ v, (s, v) ∈ m := by
  constructor
  · intro h
    rcases C.cases h with q | q | ⟨k, v, e, _⟩ | q
    · exact Or.inl q
    · exact Or.inr q
    · exact absurd e (bytes_not_null hb)
    · exact absurd q hs
  · rintro (q | ⟨v, q⟩)
    · rw [(C.inner s).mpr q]; simp
    · exact C.of_key q

theorem Ex_cons {k v s} : Ex ((k, v) :: m) s ↔ Ex m s ∨ (s <+: k ∧ s ≠ k) := by
  constructor
  · rintro ⟨k', u, hm, a, b⟩
    rcases List.mem_cons.mp hm with e | e
    · simp at e; right; rw [← e.1]; exact ⟨a, b⟩
    · exact Or.inl ⟨k', u, e, a, b⟩
  · rintro (⟨k', u, hm, a, b⟩ | ⟨a, b⟩)
    · exact ⟨k', u, by simp [hm], a, b⟩
    · exact ⟨k, v, by simp, a, b⟩

theorem WF.cons (W : WF m) {k v} (hk : k ≠ []) (hb : ∀ b ∈ k, b < 256) (hn : ∀ u, (k, u) ∉ m) :
    WF ((k, v) :: m) := by
  refine ⟨?_, ?_, ?_⟩
  · simp only [List.map_cons, List.nodup_cons, List.mem_map, not_exists, not_and]
    refine ⟨?_, W.nd⟩
    rintro ⟨k', u⟩ hm rfl; exact hn u hm
  · intro k' u hm
    rcases List.mem_cons.mp hm with e | e
    · simp at e; rw [e.1]; exact hk
    · exact W.ne k' u e
  · intro k' u hm
    rcases List.mem_cons.mp hm with e | e
    · simp at e; rw [e.1]; exact hb
    · exact W.byte k' u e

/-- Inserting a key whose path exists already. -/
theorem Canon.insert_null (C : Canon T m) (W : WF m) {k v} (hb : ∀ b ∈ k, b < 256)
    (hn : ∀ u, (k, u) ∉ m) (hi : T k = some .inner) {T' : Tree}
    (h1 : T' (k ++ [256]) = some (.leaf (v : Nat))) (h2 : ∀ s, s ≠ k ++ [256] → T' s = T s) :
    Canon T' ((k, v) :: m) := by
  have he : Ex m k := (C.inner k).mp hi
  have hE : ∀ s, Ex ((k, v) :: m) s ↔ Ex m s := by
    intro s; rw [Ex_cons]
    exact ⟨by rintro (q | q); exacts [q, he.mono q.1], Or.inl⟩
  have hne : m ≠ [] := by rintro rfl; obtain ⟨_, _, q, _⟩ := he; simp at q
  refine ⟨?_, ?_⟩
  · intro s
    rw [hE]
    by_cases hs : s = k ++ [256]
    · subst hs
      rw [h1]
      constructor
      · intro q; simp at q
      · intro q; have := q.bytes W 256 (by simp); omega
    · rw [h2 s hs]; exact C.inner s
  · intro s x
    by_cases hs : s = k ++ [256]
    · subst hs
      rw [h1]
      constructor
      · intro q
        simp at q
        exact Or.inr (Or.inl ⟨k, v, rfl, q.symm, by simp, (hE k).mpr he⟩)
      · rintro (⟨u, _, q, _⟩ | ⟨k', u, e, hx, q, _⟩ | ⟨q, _⟩)
        · exfalso
          rcases List.mem_cons.mp q with w | w
          · have := congrArg List.length (congrArg Prod.fst w); simp at this
          · have := W.byte _ _ w 256 (by simp); omega
        · have : k = k' := by simpa using e
          subst this
          rcases List.mem_cons.mp q with w | w
          · simp at w; rw [hx, w]
          · exact absurd w (hn u)
        · simp at q
    · rw [h2 s hs, C.leaf s x]
      constructor
      · rintro (⟨u, hx, q, w⟩ | ⟨k', u, e, hx, q, w⟩ | ⟨_, _, q⟩)
        · exact Or.inl ⟨u, hx, by simp [q], fun z => w ((hE s).mp z)⟩
        · exact Or.inr (Or.inl ⟨k', u, e, hx, by simp [q], (hE k').mpr w⟩)
        · exact absurd q hne
      · rintro (⟨u, hx, q, w⟩ | ⟨k', u, e, hx, q, w⟩ | ⟨_, _, q⟩)
        · rcases List.mem_cons.mp q with z | z
          · simp at z; rw [z.1] at w; exact absurd ((hE k).mpr he) w
          · exact Or.inl ⟨u, hx, z, fun y => w ((hE s).mpr y)⟩
        · rcases List.mem_cons.mp q with z | z
          · simp at z; rw [z.1] at e; exact absurd e hs
          · exact Or.inr (Or.inl ⟨k', u, e, hx, z, (hE k').mp w⟩)
        · simp at q

/-- Inserting a key that leaves the tree below `p`. -/
theorem Canon.insert_chain (C : Canon T m) (W : WF m) {k p v l ls} (hb : ∀ b ∈ k, b < 256)
    (hk : k = p ++ l :: ls) (hp : T p ≠ none) (hl : T (p ++ [l]) = none) {T' : Tree}
    (h1 : T' k = some (.leaf (v : Nat)))
    (h2 : ∀ s, p <+: s → s <+: k → s ≠ k → T' s = some .inner)
    (h3 : ∀ x, p ≠ [] → T p = some (.leaf x) → T' (p ++ [256]) = some (.leaf x))
    (h4 : ∀ s, ¬ (p <+: s ∧ s <+: k) →
      (s = p ++ [256] → p = [] ∨ T p = some .inner) → T' s = T s) :
    Canon T' ((k, v) :: m) := by
  have hpb : ∀ b ∈ p, b < 256 := by intro b h; exact hb b (by rw [hk]; simp [h])
  have hlb : l < 256 := hb l (by rw [hk]; simp)
  have hA : ∀ k' u, (k', u) ∈ m → ¬ (p ++ [l] <+: k') := by
    intro k' u hm hpre
    by_cases e : p ++ [l] = k'
    · exact (C.of_key (e ▸ hm)) hl
    · have : Ex m (p ++ [l]) := ⟨k', u, hm, hpre, e⟩
      rw [(C.inner _).mpr this] at hl; simp at hl
  have hpk : p <+: k := hk ▸ List.prefix_append _ _
  have hplk : p ++ [l] <+: k := by rw [hk]; exact ⟨ls, by simp⟩
  have hpnek : p ≠ k := by rw [hk]; simp
  have hkn : ∀ u, (k, u) ∉ m := fun u hm => hA k u hm hplk
  have hnE : ∀ s, p ++ [l] <+: s → ¬ Ex m s := by
    rintro s hs ⟨k', u, hm, a, _⟩
    exact hA k' u hm (hs.trans a)
  have h256 : ∀ s, s <+: k → s ≠ p ++ [256] := by
    rintro s hs rfl
    have := hb 256 (hs.subset (by simp)); omega
  have hkne : k ≠ [] := by rw [hk]; simp
  refine ⟨?_, ?_⟩
  · intro s
    rw [Ex_cons]
    by_cases hmid : p <+: s ∧ s <+: k
    · by_cases hs : s = k
      · subst hs
        rw [h1]
        constructor
        · intro q; simp at q
        · rintro (q | q)
          · exact absurd q (hnE _ hplk)
          · exact absurd rfl q.2
      · rw [h2 s hmid.1 hmid.2 hs]
        exact ⟨fun _ => Or.inr ⟨hmid.2, hs⟩, fun _ => rfl⟩
    · have hle : s <+: k → Ex m s := by
        intro hs
        rcases prefix_cases hk hs with q | q
        · have : s ≠ p := by rintro rfl; exact hmid ⟨List.prefix_rfl, hs⟩
          exact C.down hp q this
        · exact absurd ⟨(List.prefix_append p [l]).trans q, hs⟩ hmid
      by_cases hs : s = p ++ [256] ∧ ¬ (p = [] ∨ T p = some .inner)
      · obtain ⟨rfl, hq⟩ := hs
        have : ∃ x, T p = some (.leaf x) := by
          cases hT : T p with
          | none => exact absurd hT hp
          | some y =>
            cases y with
            | inner => exact absurd (Or.inr hT) hq
            | leaf x => exact ⟨x, rfl⟩
        obtain ⟨x, hx⟩ := this
        rw [h3 x (fun w => hq (Or.inl w)) hx]
        constructor
        · intro q; simp at q
        · rintro (q | q)
          · have := q.bytes W 256 (by simp); omega
          · exact absurd rfl (h256 _ q.1)
      · rw [h4 s hmid (by
          intro e
          exact Classical.byContradiction fun w => hs ⟨e, w⟩), C.inner s]
        exact ⟨Or.inl, by rintro (q | q); exacts [q, hle q.1]⟩
  · intro s x
    by_cases hmid : p <+: s ∧ s <+: k
    · have hnull : ∀ k' u, s = k' ++ [256] → (k', u) ∈ (k, v) :: m → False := by
        intro k' u e _
        have := hb 256 (hmid.2.subset (by rw [e]; simp)); omega
      by_cases hs : s = k
      · subst hs
        rw [h1]
        constructor
        · intro q
          simp at q
          refine Or.inl ⟨v, q.symm, by simp, ?_⟩
          rw [Ex_cons]
          rintro (q | q)
          · exact hnE _ hplk q
          · exact q.2 rfl
        · rintro (⟨u, hx, q, w⟩ | ⟨k', u, e, hx, q, w⟩ | ⟨q, _⟩)
          · rcases List.mem_cons.mp q with z | z
            · simp at z; rw [hx, z]
            · exact absurd z (hkn u)
          · exact (hnull k' u e q).elim
          · exact absurd q hkne
      · rw [h2 s hmid.1 hmid.2 hs]
        constructor
        · intro q; simp at q
        · rintro (⟨u, hx, q, w⟩ | ⟨k', u, e, hx, q, w⟩ | ⟨_, _, q⟩)
          · exact absurd (Ex_cons.mpr (Or.inr ⟨hmid.2, hs⟩)) w
          · exact (hnull k' u e q).elim
          · simp at q
    · have hsk : s ≠ k := by rintro rfl; exact hmid ⟨hpk, List.prefix_rfl⟩
      by_cases hs : s = p ++ [256] ∧ ¬ (p = [] ∨ T p = some .inner)
      · obtain ⟨rfl, hq⟩ := hs
        have : ∃ y, T p = some (.leaf y) := by
          cases hT : T p with
          | none => exact absurd hT hp
          | some y =>
            cases y with
            | inner => exact absurd (Or.inr hT) hq
            | leaf x => exact ⟨x, rfl⟩
        obtain ⟨y, hy⟩ := this
        have hp0 : p ≠ [] := fun w => hq (Or.inl w)
        rw [h3 y hp0 hy]
        have hpm : ∃ u : Nat, y = u ∧ (p, u) ∈ m := by
          rcases (C.leaf p y).mp hy with ⟨u, hx, q, w⟩ | ⟨k', u, e, hx, q, w⟩ | ⟨q, _⟩
          · exact ⟨u, hx, q⟩
          · exact absurd e (bytes_not_null hpb)
          · exact absurd q hp0
        obtain ⟨u, rfl, hpm⟩ := hpm
        have hEp : Ex ((k, v) :: m) p := Ex_cons.mpr (Or.inr ⟨hpk, hpnek⟩)
        constructor
        · intro q
          simp at q
          exact Or.inr (Or.inl ⟨p, u, rfl, q.symm, by simp [hpm], hEp⟩)
        · rintro (⟨u', hx, q, w⟩ | ⟨k', u', e, hx, q, w⟩ | ⟨q, _⟩)
          · rcases List.mem_cons.mp q with z | z
            · simp at z; exact absurd z.1 hsk
            · have := W.byte _ _ z 256 (by simp); omega
          · have : p = k' := by simpa using e
            subst this
            rcases List.mem_cons.mp q with z | z
            · simp at z; exact absurd z.1 hpnek
            · rw [hx, W.uniq z hpm]
          · simp at q
      · have hcond : s = p ++ [256] → p = [] ∨ T p = some .inner := by
          intro e
          exact Classical.byContradiction fun w => hs ⟨e, w⟩
        rw [h4 s hmid hcond, C.leaf s x]
        have hle : s <+: k → Ex m s := by
          intro hsk
          rcases prefix_cases hk hsk with q | q
          · have : s ≠ p := by rintro rfl; exact hmid ⟨List.prefix_rfl, hsk⟩
            exact C.down hp q this
          · exact absurd ⟨(List.prefix_append p [l]).trans q, hsk⟩ hmid
        have hEs : Ex ((k, v) :: m) s ↔ Ex m s := by
          rw [Ex_cons]
          exact ⟨by rintro (q | q); exacts [q, hle q.1], Or.inl⟩
        constructor
        · rintro (⟨u, hx, q, w⟩ | ⟨k', u, e, hx, q, w⟩ | ⟨q, _, w⟩)
          · exact Or.inl ⟨u, hx, by simp [q], fun z => w (hEs.mp z)⟩
          · exact Or.inr (Or.inl ⟨k', u, e, hx, by simp [q], Ex_cons.mpr (Or.inl w)⟩)
          · subst w
            subst q
            exfalso
            have : Ex [] ([] : List Nat) := hle List.nil_prefix
            obtain ⟨_, _, q, _⟩ := this
            simp at q
        · rintro (⟨u, hx, q, w⟩ | ⟨k', u, e, hx, q, w⟩ | ⟨_, _, q⟩)
          · rcases List.mem_cons.mp q with z | z
            · simp at z; exact absurd z.1 hsk
            · exact Or.inl ⟨u, hx, z, fun y => w (hEs.mpr y)⟩
          · rcases List.mem_cons.mp q with z | z
            · simp at z
              rw [z.1] at w
              rcases Ex_cons.mp w with y | y
              · exact absurd y (hnE _ hplk)
              · exact absurd rfl y.2
            · refine Or.inr (Or.inl ⟨k', u, e, hx, z, ?_⟩)
              rcases Ex_cons.mp w with y | y
              · exact y
              · -- k' is a proper prefix of k and a key
                rcases prefix_cases hk y.1 with g | g
                · by_cases hpe : k' = p
                  · subst hpe
                    rcases hcond e with g' | g'
                    · exact absurd g' (W.ne _ _ z)
                    · exact (C.inner _).mp g'
                  · exact C.down hp g hpe
                · exact absurd g (hA k' u z)
          · simp at q

end

end Verif.Proof.Trie
