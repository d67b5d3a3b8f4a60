import Verif.Proof.TrieRun

/-!
Values of `trie_base`, and whole histories.
-/
namespace Verif.Proof.Trie
open Verif.Spec Verif.Model.Trie Verif.Spec.KeyMap

def setMap (m : KMap) (k : List Nat) (v : Nat) : KMap := m.map fun e => if e.1 = k then (k, v) else e

section
variable {m : KMap}

theorem mem_set {k v s x} : (s, x) ∈ setMap m k v ↔
    (s = k ∧ x = v ∧ ∃ u, (k, u) ∈ m) ∨ (s ≠ k ∧ (s, x) ∈ m) := by
  unfold setMap
  rw [List.mem_map]
  constructor
  · rintro ⟨⟨a, b⟩, h, e⟩
    by_cases q : a = k
    · subst q; simp at e; exact Or.inl ⟨e.1.symm, e.2.symm, b, h⟩
    · simp [q] at e
      obtain ⟨rfl, rfl⟩ := e
      exact Or.inr ⟨q, h⟩
  · rintro (⟨rfl, rfl, u, h⟩ | ⟨q, h⟩)
    · exact ⟨(s, u), h, by simp⟩
    · exact ⟨(s, x), h, by simp [q]⟩

theorem set_fst {k v} : (setMap m k v).map Prod.fst = m.map Prod.fst := by
  unfold setMap
  rw [List.map_map]
  apply List.map_congr_left
  intro e _
  simp only [Function.comp]
  split
  · rename_i h; exact h.symm
  · rfl

theorem WF.set (W : WF m) {k v} : WF (setMap m k v) := by
  refine ⟨by rw [set_fst]; exact W.nd, ?_, ?_⟩
  · intro s u h
    rcases mem_set.mp h with ⟨rfl, _, u, h⟩ | ⟨_, h⟩
    · exact W.ne _ _ h
    · exact W.ne _ _ h
  · intro s u h
    rcases mem_set.mp h with ⟨rfl, _, u, h⟩ | ⟨_, h⟩
    · exact W.byte _ _ h
    · exact W.byte _ _ h

theorem Ex_iff {s} : Ex m s ↔ ∃ k ∈ m.map Prod.fst, s <+: k ∧ s ≠ k := by
  simp only [Ex, List.mem_map, Prod.exists, exists_and_right, exists_eq_right]

theorem Ex_set {k v s} : Ex (setMap m k v) s ↔ Ex m s := by
  rw [Ex_iff, Ex_iff, set_fst]

theorem set_absent {k v} (hk : ∀ u, (k, u) ∉ m) : setMap m k v = m := by
  unfold setMap
  conv => rhs; rw [← List.map_id m]
  apply List.map_congr_left
  rintro ⟨a, b⟩ h
  rw [if_neg]; · rfl
  rintro rfl; exact hk b h

theorem Canon.set {T T' : Tree} (C : Canon T m) (W : WF m) {k u v} (hk : (k, u) ∈ m)
    (h1 : Ex m k → T' (k ++ [256]) = some (.leaf (v : Nat)) ∧ ∀ s, s ≠ k ++ [256] → T' s = T s)
    (h2 : ¬ Ex m k → T' k = some (.leaf (v : Nat)) ∧ ∀ s, s ≠ k → T' s = T s) :
    Canon T' (setMap m k v) := by
  have hkv : (k, v) ∈ setMap m k v := mem_set.mpr (Or.inl ⟨rfl, rfl, u, hk⟩)
  have Ws : WF (setMap m k v) := W.set
  have hne : m ≠ [] := by rintro rfl; simp at hk
  have hne' : setMap m k v ≠ [] := by intro q; rw [q] at hkv; simp at hkv
  have hb := W.byte k u hk
  have gen : ∀ s, (Ex m k → s ≠ k ++ [256]) → (¬ Ex m k → s ≠ k) → T' s = T s := by
    intro s a b
    by_cases hE : Ex m k
    · exact (h1 hE).2 s (a hE)
    · exact (h2 hE).2 s (b hE)
  have spec : ∀ s, ¬ ((Ex m k → s ≠ k ++ [256]) ∧ (¬ Ex m k → s ≠ k)) →
      (Ex m k ∧ s = k ++ [256]) ∨ (¬ Ex m k ∧ s = k) := by
    intro s h
    by_cases hE : Ex m k
    · left; refine ⟨hE, ?_⟩
      exact Classical.byContradiction fun q => h ⟨fun _ => q, fun w => absurd hE w⟩
    · right; refine ⟨hE, ?_⟩
      exact Classical.byContradiction fun q => h ⟨fun w => absurd w hE, fun _ => q⟩
  refine ⟨?_, ?_⟩
  · intro s
    rw [Ex_set]
    by_cases hs : (Ex m k → s ≠ k ++ [256]) ∧ (¬ Ex m k → s ≠ k)
    · rw [gen s hs.1 hs.2]; exact C.inner s
    · rcases spec s hs with ⟨hE, rfl⟩ | ⟨hE, rfl⟩
      · rw [(h1 hE).1]
        constructor
        · intro q; simp at q
        · intro q; have := q.bytes W 256 (by simp); omega
      · rw [(h2 hE).1]
        constructor
        · intro q; simp at q
        · intro q; exact absurd q hE
  · intro s x
    by_cases hs : (Ex m k → s ≠ k ++ [256]) ∧ (¬ Ex m k → s ≠ k)
    · rw [gen s hs.1 hs.2, C.leaf s x]
      constructor
      · rintro (⟨w, hx, q, y⟩ | ⟨k', w, e, hx, q, y⟩ | ⟨_, _, q⟩)
        · have : s ≠ k := by
            rintro rfl; exact hs.2 y rfl
          exact Or.inl ⟨w, hx, mem_set.mpr (Or.inr ⟨this, q⟩), by rw [Ex_set]; exact y⟩
        · have : k' ≠ k := by
            rintro rfl; exact hs.1 y e
          exact Or.inr (Or.inl ⟨k', w, e, hx, mem_set.mpr (Or.inr ⟨this, q⟩), by rw [Ex_set]; exact y⟩)
        · exact absurd q hne
      · rintro (⟨w, hx, q, y⟩ | ⟨k', w, e, hx, q, y⟩ | ⟨_, _, q⟩)
        · rw [Ex_set] at y
          have : s ≠ k := by
            rintro rfl; exact hs.2 y rfl
          rcases mem_set.mp q with z | z
          · exact absurd z.1 this
          · exact Or.inl ⟨w, hx, z.2, y⟩
        · rw [Ex_set] at y
          have : k' ≠ k := by
            rintro rfl; exact hs.1 y e
          rcases mem_set.mp q with z | z
          · exact absurd z.1 this
          · exact Or.inr (Or.inl ⟨k', w, e, hx, z.2, y⟩)
        · exact absurd q hne'
    · rcases spec s hs with ⟨hE, rfl⟩ | ⟨hE, rfl⟩
      · rw [(h1 hE).1]
        constructor
        · intro q
          simp at q
          exact Or.inr (Or.inl ⟨k, v, rfl, q.symm, hkv, by rw [Ex_set]; exact hE⟩)
        · rintro (⟨w, hx, q, y⟩ | ⟨k', w, e, hx, q, y⟩ | ⟨q, _⟩)
          · have := Ws.byte _ _ q 256 (by simp); omega
          · have : k = k' := by simpa using e
            subst this
            rw [hx, Ws.uniq q hkv]
          · simp at q
      · rw [(h2 hE).1]
        constructor
        · intro q
          simp at q
          exact Or.inl ⟨v, q.symm, hkv, by rw [Ex_set]; exact hE⟩
        · rintro (⟨w, hx, q, y⟩ | ⟨k', w, e, hx, q, y⟩ | ⟨q, _⟩)
          · rw [hx, Ws.uniq q hkv]
          · exact absurd e (bytes_not_null hb)
          · exact absurd q (W.ne _ _ hk)

end

section
variable {h : Heap} {F : Nat → Prop} {m : KMap}

open Classical in
/-- The node that holds the value of a key. -/
theorem Rep.valueNode (R : Rep h F m) {k v i} (hk : (k, v) ∈ m) (hw : walk h 1 k = some i) :
    ∃ j, Base.valueIndex h i = some j ∧
      walk h 1 (if Ex m k then k ++ [256] else k) = some j ∧
      tr h (if Ex m k then k ++ [256] else k) = some (.leaf (v : Nat)) := by
  have hlt := (R.I.root_used hw).lt R.I.fl
  unfold Base.valueIndex
  rw [rdB, if_pos hlt.2]
  simp only [Option.map_some]
  by_cases hE : Ex m k
  · have hleaf : tr h (k ++ [256]) = some (.leaf v) :=
      (R.C.leaf _ _).mpr (Or.inr (Or.inl ⟨k, v, rfl, rfl, hk, hE⟩))
    have hN : (child h i 256).isSome = true := (child_isSome_tr hw).mpr (by rw [hleaf]; simp)
    obtain ⟨j, hj⟩ := Option.isSome_iff_exists.mp hN
    obtain ⟨b, eb, b1, _, bl, bc, rfl⟩ := child_eq_some.mp hj
    rw [if_neg (by omega)]
    simp only [hE, if_true]
    refine ⟨_, rfl, ?_, hleaf⟩
    rw [walk_snoc, hw]
    simp only [eb, Int.toNat_natCast, nullValue, Option.bind_some]; exact hj
  · have hleaf : tr h k = some (.leaf v) := (R.C.leaf _ _).mpr (Or.inl ⟨v, rfl, hk, hE⟩)
    have := tr_leaf_base hw hleaf
    rw [if_pos (by omega)]
    simp only [hE, if_false]
    exact ⟨i, rfl, hw, hleaf⟩

theorem Rep.atKey (R : Rep h F m) {k} (hb : ∀ b ∈ k, b < 256) :
    Base.atKey h k = some ((KeyMap.get m k).map Int.ofNat) := by
  unfold Base.atKey
  rcases R.find hb with ⟨v, i, hk, hw, i2, ef⟩ | ⟨hk, ef⟩
  · obtain ⟨j, ej, hj, hl⟩ := R.valueNode hk hw
    rw [ef]
    simp only [Option.bind_some]
    rw [if_neg (by omega), ej]
    have hlt := (R.I.root_used hj).lt R.I.fl
    have hv := tr_leaf_base hj hl
    simp only [Option.bind_some, Base.readValue]
    rw [rdB, if_pos hlt.2]
    simp only [Option.bind_some]
    rw [if_pos (by omega), (get_some R.W).mpr hk]
    simp [hv.1]
  · rw [ef, get_none.mpr hk]; simp

theorem Rep.write (R : Rep h F m) {k u i j} {v : Nat} (hk : (k, u) ∈ m) (hw : walk h 1 k = some i)
    (hj : Base.valueIndex h i = some j) :
    ∃ h', wrB h j (-(v : Int)) = some h' ∧ Rep h' F (setMap m k v) := by
  obtain ⟨j', ej, hj', hl⟩ := R.valueNode hk hw
  rw [hj] at ej
  obtain rfl : j = j' := by simpa using ej
  obtain ⟨h1, e1, I1, s1, w1, t1⟩ := setB_spec R.I hj' (v := -(v : Int)) (by omega)
    (no_child_of_leaf hj' hl)
  refine ⟨h1, e1, I1, R.W.set, ?_, ?_⟩
  · rw [s1, R.size]; simp [setMap]
  · refine R.C.set R.W hk ?_ ?_
    · intro hE
      simp only [hE, if_true] at t1
      exact ⟨by rw [t1, if_pos rfl]; simp, fun s hs => by rw [t1, if_neg hs]⟩
    · intro hE
      simp only [hE, if_false] at t1
      exact ⟨by rw [t1, if_pos rfl]; simp, fun s hs => by rw [t1, if_neg hs]⟩

theorem Rep.setKey (R : Rep h F m) {k} {v : Nat} (hb : ∀ b ∈ k, b < 256) :
    ∃ h', Base.setKey h k v = some (h', (KeyMap.get m k).isNone) ∧ Rep h' F (setMap m k v) := by
  unfold Base.setKey
  rcases R.find hb with ⟨u, i, hk, hw, i2, ef⟩ | ⟨hk, ef⟩
  · obtain ⟨j, ej, _, _⟩ := R.valueNode hk hw
    obtain ⟨h1, e1, R1⟩ := R.write (v := v) hk hw ej
    refine ⟨h1, ?_, R1⟩
    rw [ef]
    simp only [Option.bind_some]
    rw [if_neg (by omega), ej, (get_some R.W).mpr hk]
    simp [e1]
  · refine ⟨h, ?_, by rw [set_absent hk]; exact R⟩
    rw [ef, get_none.mpr hk]; simp

theorem Rep.indexSet (R : Rep h F m) {k} {v : Nat} (hb : ∀ b ∈ k, b < 256) (h0 : k ≠ []) :
    ∃ h' F', Base.indexSet h k v = some h' ∧
      Rep h' F' (setMap (if (KeyMap.get m k).isSome = true then m else (k, 0) :: m) k v) := by
  unfold Base.indexSet
  rcases R.find hb with ⟨u, i, hk, hw, i2, ef⟩ | ⟨hk, ef⟩
  · obtain ⟨j, ej, _, _⟩ := R.valueNode hk hw
    obtain ⟨h1, e1, R1⟩ := R.write (v := v) hk hw ej
    refine ⟨h1, F, ?_, ?_⟩
    · rw [ef]
      simp only [Option.bind_some]
      rw [if_neg (by omega)]
      simp only [Option.bind_some, ej, e1]
    · rw [(get_some R.W).mpr hk]; simpa using R1
  · obtain ⟨h1, F1, i, e1, R1, hw⟩ := R.insert (v := 0) h0 hb (by omega)
    have hmem : (k, 0) ∈ (if (KeyMap.get m k).isSome = true then m else (k, 0) :: m) := by
      rw [get_none.mpr hk]; simp
    obtain ⟨j, ej, _, _⟩ := R1.valueNode hmem hw
    obtain ⟨h2, e2, R2⟩ := R1.write (v := v) hmem hw ej
    refine ⟨h2, F1, ?_, R2⟩
    rw [ef]
    simp only [Option.bind_some, if_true, e1, ej, e2]

end

end Verif.Proof.Trie
