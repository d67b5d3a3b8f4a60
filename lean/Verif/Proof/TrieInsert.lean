import Verif.Proof.TrieOps
import Verif.Proof.TrieCanon
import Verif.Proof.TrieAdd
import Verif.Model.TrieBase

/-!
Loops of `insert` in terms of the tree of a trie.
-/
namespace Verif.Proof.Trie
open Verif.Spec Verif.Model.Trie Verif.Spec.KeyMap

theorem skip_spec {h F} (I : Inv h F) : ∀ (key : List Nat) (q : List Nat) (i : Nat),
    walk h 1 q = some i → (∀ b ∈ key, b ≤ 256) →
    ∃ j p r, skipLoop h i key = some (j, r) ∧ key = p ++ r ∧ walk h 1 (q ++ p) = some j ∧
      (∀ l ls, r = l :: ls → tr h (q ++ p ++ [l]) = none) := by
  intro key
  induction key with
  | nil => intro q i hw _; exact ⟨i, [], [], rfl, rfl, by simpa using hw, by simp⟩
  | cons l ls ih =>
    intro q i hw hb
    have u := I.root_used hw
    rw [skipLoop, at_spec I u (hb l (by simp))]
    simp only [Option.bind_some]
    cases hc : child h i l with
    | none =>
      simp only [Option.getD_none, ne_eq, not_true_eq_false, if_false]
      refine ⟨i, [], l :: ls, rfl, rfl, by simpa using hw, ?_⟩
      intro l' ls' e
      obtain ⟨rfl, rfl⟩ := by simpa using e
      have := child_isSome_tr (l := l) hw
      rw [hc] at this
      simpa using this
    | some j =>
      have hj := (I.child_used u hc).2.1
      simp only [Option.getD_some]
      rw [if_pos (by omega)]
      have hw' : walk h 1 (q ++ [l]) = some j := by rw [walk_snoc, hw]; exact hc
      obtain ⟨k, p, r, e1, e2, e3, e4⟩ := ih (q ++ [l]) j hw' (fun b m => hb b (by simp [m]))
      refine ⟨k, l :: p, r, e1, by simp [e2], by simpa using e3, ?_⟩
      intro l' ls' e
      simpa using e4 l' ls' e

theorem kind_inner {h i} : kind h i = .inner ↔ 1 ≤ h.base i := by
  unfold kind; split <;> simp [*]

theorem kind_leaf {h i v} : kind h i = .leaf v ↔ h.base i ≤ 0 ∧ v = -h.base i := by
  unfold kind; split
  · simp; omega
  · simp; omega

/-- Adding one transition. -/
theorem add_one {h F} (I : Inv h F) {q parent l} (hw : walk h 1 q = some parent) (hl : l ≤ 256)
    (hfull : tr h q = some .inner → ∃ l', tr h (q ++ [l']) ≠ none) :
    ∃ h' F' nb, add h parent [l] = some (h', nb) ∧ Inv h' F' ∧ h'.base 0 = h.base 0 ∧
      walk h' 1 q = some parent ∧ walk h' 1 (q ++ [l]) = some (nb + l) ∧ nb ≠ 0 ∧
      (∀ s, tr h' s = if s = q then some .inner else
        if s = q ++ [l] ∧ tr h s = none then some (.leaf 0) else tr h s) ∧
      (∀ s j, walk h 1 s = some j → (∀ l', s ≠ q ++ [l']) → walk h' 1 s = some j) := by
  have u := I.root_used hw
  obtain ⟨h', F', nb, φ, e, X⟩ := add_spec (labels := [l]) I u (by simp) (by simp) (by simpa using hl) (by
    intro hb
    have : tr h q = some .inner := by rw [tr_of_walk hw, kind_inner.mpr hb]
    obtain ⟨l', hl'⟩ := hfull this
    have := (child_isSome_tr (l := l') hw).mpr hl'
    obtain ⟨j, hj⟩ := Option.isSome_iff_exists.mp this
    exact ⟨l', j, hj⟩)
  have ht := X.tr_eq I u hw
  have php := X.toPre.phpar I u
  have hwq := X.walk_old I u _ q parent rfl hw
  rw [php] at hwq
  have hwl := X.walk_new I u hw l (by simp)
  have hnb : nb ≠ 0 := by
    have := (X.child_par I u l (nb + l)).mpr ⟨rfl, Or.inl (by simp)⟩
    obtain ⟨b, _, b1, _, _, _, e⟩ := child_eq_some.mp this
    omega
  refine ⟨h', F', nb, e, X.inv I u, X.size, hwq, hwl, hnb, ?_, ?_⟩
  rotate_left
  · intro s j hs hl'
    have := X.walk_old I u _ s j rfl hs
    rw [X.phid j (I.root_used hs)] at this
    · exact this
    · intro l' hc
      exact hl' l' (I.walk_inj hs (by rw [walk_snoc, hw]; exact hc))
  intro s
  rw [ht s]
  by_cases hs : s = q
  · simp [hs]
  · simp only [hs, if_false, List.map_cons, List.map_nil, List.mem_singleton]
    by_cases a : s = q ++ [l] <;> by_cases b : tr h s = none <;> simp [a, b]

def Full (h : Heap) : Prop := ∀ q, tr h q = some .inner → ∃ l, tr h (q ++ [l]) ≠ none

theorem no_child_of_leaf {h i q v} (hw : walk h 1 q = some i) (ht : tr h q = some (.leaf v)) :
    ∀ l, child h i l = none := by
  intro l
  have := tr_leaf_child (l := l) ht
  have h2 := child_isSome_tr (l := l) hw
  cases hc : child h i l with
  | none => rfl
  | some j => rw [hc] at h2; exact absurd this (h2.mp rfl)

theorem tr_leaf_base {h i q v} (hw : walk h 1 q = some i) (ht : tr h q = some (.leaf v)) :
    h.base i = -v ∧ 0 ≤ v := by
  rw [tr_of_walk hw, Option.some.injEq, kind_leaf] at ht
  omega

/-- Chain of new transitions below `q`. -/
theorem chain_spec : ∀ (ls : List Nat) (l : Nat) (h : Heap) (F : Nat → Prop) (b0 i : Nat) (q : List Nat),
    Inv h F → walk h 1 q = some i → (∀ b ∈ l :: ls, b ≤ 256) → tr h (q ++ [l]) = none →
    (tr h q = some .inner → ∃ l', tr h (q ++ [l']) ≠ none) →
    ∃ h' F' b j, chainLoop h b0 i (l :: ls) = some (h', b, j) ∧ Inv h' F' ∧ h'.base 0 = h.base 0 ∧
      b ≠ 0 ∧ walk h' 1 (q ++ l :: ls) = some j ∧ tr h' (q ++ l :: ls) = some (.leaf 0) ∧
      (∀ s, q <+: s → s <+: q ++ l :: ls → s ≠ q ++ l :: ls → tr h' s = some .inner) ∧
      (∀ s, ¬ (q <+: s ∧ s <+: q ++ l :: ls) → tr h' s = tr h s) ∧
      (∀ s j, walk h 1 s = some j → (∀ l', s ≠ q ++ [l']) → walk h' 1 s = some j) := by
  intro ls
  induction ls with
  | nil =>
    intro l h F b0 i q I hw hb hn hf
    obtain ⟨h1, F1, nb, e, I1, s1, w1, w2, nb0, ht, hmv⟩ := add_one I hw (hb l (by simp)) hf
    refine ⟨h1, F1, nb, nb + l, by simp [chainLoop, e], I1, s1, nb0, w2, ?_, ?_, ?_, hmv⟩
    · rw [ht, if_neg (by simp), if_pos ⟨rfl, hn⟩]
    · intro s a b c
      rw [ht, if_pos]
      exact (((List.prefix_concat_iff.mp b).resolve_left c).eq_of_length_le a.length_le)
    · intro s a
      rw [ht, if_neg, if_neg]
      · rintro ⟨rfl, _⟩; exact a ⟨List.prefix_append _ _, List.prefix_rfl⟩
      · rintro rfl; exact a ⟨List.prefix_rfl, List.prefix_append _ _⟩
  | cons l2 ls ih =>
    intro l h F b0 i q I hw hb hn hf
    obtain ⟨h1, F1, nb, e, I1, s1, w1, w2, nb0, ht, hmv⟩ := add_one I hw (hb l (by simp)) hf
    have hleaf : tr h1 (q ++ [l]) = some (.leaf 0) := by
      rw [ht, if_neg (by simp), if_pos ⟨rfl, hn⟩]
    obtain ⟨h2, F2, b, j, e2, I2, s2, c0, c1, c2, c3, c4, c5⟩ := ih l2 h1 F1 nb (nb + l) (q ++ [l]) I1 w2
      (fun b m => hb b (by simp at m ⊢; tauto)) (tr_leaf_child hleaf) (by rw [hleaf]; simp)
    simp only [List.append_assoc, List.singleton_append] at c1 c2 c3 c4
    refine ⟨h2, F2, b, j, by rw [chainLoop, e]; exact e2, I2, s2.trans s1, c0, c1, c2, ?_, ?_, ?_⟩
    rotate_left 2
    · intro s j hs hl'
      refine c5 s j (hmv s j hs hl') ?_
      rintro l' rfl
      have h1 : tr h (q ++ [l] ++ [l']) = none := tr_none_append hn
      rw [tr_of_walk hs] at h1
      simp at h1
    · intro s a b c
      rcases prefix_cases (p := q) (l := l) (ls := l2 :: ls) rfl b with w | w
      · have : s = q := w.eq_of_length_le a.length_le
        rw [c4, ht, if_pos this]
        rintro ⟨z, _⟩
        rw [this] at z
        have := z.length_le
        simp only [List.length_append, List.length_singleton] at this
        omega
      · exact c3 s w b c
    · intro s a
      rw [c4, ht, if_neg, if_neg]
      · rintro ⟨rfl, _⟩; exact a ⟨List.prefix_append _ _, ⟨l2 :: ls, by simp⟩⟩
      · rintro rfl; exact a ⟨List.prefix_rfl, List.prefix_append _ _⟩
      · rintro ⟨z, z'⟩
        exact a ⟨(List.prefix_append q [l]).trans z, z'⟩

theorem addNull_spec {h F} (I : Inv h F) {q parent} {v : Int} (hw : walk h 1 q = some parent)
    (hfull : tr h q = some .inner → ∃ l', tr h (q ++ [l']) ≠ none)
    (hn : tr h (q ++ [256]) = none) (hv : v ≤ 0) :
    ∃ h' F', addNull h parent v = some h' ∧ Inv h' F' ∧ h'.base 0 = h.base 0 ∧
      walk h' 1 q = some parent ∧
      (∀ s, tr h' s = if s = q then some .inner else
        if s = q ++ [256] then some (.leaf (-v)) else tr h s) := by
  obtain ⟨h1, F1, nb, e, I1, s1, w1, w2, nb0, ht, hmv⟩ := add_one I hw (l := 256) (by omega) hfull
  have hleaf : tr h1 (q ++ [256]) = some (.leaf 0) := by
    rw [ht, if_neg (by simp), if_pos ⟨rfl, hn⟩]
  have hb := tr_leaf_base w2 hleaf
  have hlt := (I1.root_used w2).lt I1.fl
  obtain ⟨h2, e2, I2, s2, w3, ht2⟩ := setB_spec I1 w2 hv (no_child_of_leaf w2 hleaf)
  refine ⟨h2, F1, ?_, I2, s2.trans s1, by rw [w3]; exact w1, ?_⟩
  · simp only [addNull, nullValue, e, Option.bind_some]
    rw [rdB, if_pos hlt.2]
    simp only [Option.bind_some]
    rw [if_pos (by omega)]; exact e2
  · intro s
    rw [ht2, ht]
    by_cases a : s = q ++ [256]
    · subst a; rw [if_pos rfl, if_neg (by simp), if_pos rfl]
    · simp [a]

structure Rep (h : Heap) (F : Nat → Prop) (m : KMap) : Prop where
  I : Inv h F
  W : WF m
  size : h.base 0 = m.length
  C : Canon (tr h) m

theorem Ex.step {m : KMap} {s} (h : Ex m s) (W : WF m) :
    ∃ a < 256, Ex m (s ++ [a]) ∨ ∃ v, (s ++ [a], v) ∈ m := by
  obtain ⟨k, v, hm, ⟨t, rfl⟩, b⟩ := h
  cases t with
  | nil => simp at b
  | cons a t =>
    refine ⟨a, W.byte _ v hm a (by simp), ?_⟩
    by_cases e : t = []
    · subst e; exact Or.inr ⟨v, hm⟩
    · refine Or.inl ⟨_, v, hm, ⟨t, by simp⟩, ?_⟩
      intro w; simp at w; exact e w

theorem Canon.child {T m} (C : Canon T m) (W : WF m) {s} :
    T s = some .inner ↔ ∃ a < 256, T (s ++ [a]) ≠ none := by
  constructor
  · intro h
    obtain ⟨a, ha, q | ⟨v, q⟩⟩ := ((C.inner s).mp h).step W
    · exact ⟨a, ha, by rw [(C.inner _).mpr q]; simp⟩
    · exact ⟨a, ha, C.of_key q⟩
  · rintro ⟨a, _, h⟩
    exact (C.inner s).mpr (C.down h (List.prefix_append _ _) (by simp))

theorem Canon.null {T m} (C : Canon T m) (W : WF m) {s} :
    T (s ++ [256]) ≠ none ↔ (∃ v, (s, v) ∈ m) ∧ Ex m s := by
  constructor
  · intro h
    rcases C.cases h with q | ⟨v, q⟩ | ⟨k, v, e, a, b⟩ | q
    · have := q.bytes W 256 (by simp); omega
    · have := W.byte _ _ q 256 (by simp); omega
    · have : s = k := by simpa using e
      subst this; exact ⟨⟨v, a⟩, b⟩
    · simp at q
  · rintro ⟨⟨v, a⟩, b⟩
    rw [(C.leaf _ v).mpr (Or.inr (Or.inl ⟨s, v, rfl, rfl, a, b⟩))]; simp

theorem Canon.full {T m} (C : Canon T m) (W : WF m) {q} (h : T q = some .inner) :
    ∃ l, T (q ++ [l]) ≠ none := by
  obtain ⟨a, _, h⟩ := (C.child W).mp h
  exact ⟨a, h⟩

theorem Canon.congr {T T' m} (C : Canon T m) (h : ∀ s, T' s = T s) : Canon T' m :=
  ⟨fun s => by rw [h]; exact C.inner s, fun s x => by rw [h]; exact C.leaf s x⟩

section
variable {h : Heap} {F : Nat → Prop} {m : KMap}

theorem Rep.hasChild (R : Rep h F m) {q i} (hw : walk h 1 q = some i) :
    ∃ r, hasChild h i = some r ∧ (r = true ↔ Ex m q) := by
  obtain ⟨r, e, hr⟩ := hasChild_spec R.I (R.I.root_used hw)
  refine ⟨r, e, hr.trans ?_⟩
  rw [← R.C.inner q, R.C.child R.W]
  constructor
  · rintro ⟨l, a, b⟩; exact ⟨l, a, (child_isSome_tr hw).mp b⟩
  · rintro ⟨l, a, b⟩; exact ⟨l, a, (child_isSome_tr hw).mpr b⟩

theorem Rep.hasNull (R : Rep h F m) {q i} (hw : walk h 1 q = some i) :
    ∃ r, hasNull h i = some r ∧ (r = true ↔ (∃ v, (q, v) ∈ m) ∧ Ex m q) := by
  refine ⟨_, hasNull_spec R.I (R.I.root_used hw), ?_⟩
  rw [child_isSome_tr hw, R.C.null R.W]

theorem Rep.insert (R : Rep h F m) {k : List Nat} {v : Nat} (hk : k ≠ [])
    (hb : ∀ b ∈ k, b < 256) (hv : v ≤ 2147483647) :
    ∃ h' F' i, Base.insertKey h k v = some (h', i) ∧
      Rep h' F' (if (KeyMap.get m k).isSome = true then m else (k, v) :: m) ∧
      walk h' 1 k = some i := by
  obtain ⟨i, p, r, e1, hkp, hw, hnone⟩ := skip_spec R.I k [] 1 rfl (fun b m => by have := hb b m; omega)
  simp only [List.nil_append] at hw hnone
  unfold Base.insertKey
  rw [if_pos (show v ≤ valueMax from hv), if_neg hk, e1]
  simp only [Option.bind_some]
  have hpb : ∀ b ∈ p, b < 256 := fun b h => hb b (by rw [hkp]; simp [h])
  cases r with
  | nil =>
    simp only [List.append_nil] at hkp
    subst hkp
    have hi : i ≠ 1 := by
      rintro rfl
      exact hk (R.I.walk_inj hw (by rfl))
    have hT : tr h k ≠ none := by rw [tr_of_walk hw]; simp
    obtain ⟨hc, ec, hc'⟩ := R.hasChild hw
    obtain ⟨hn, en, hn'⟩ := R.hasNull hw
    simp only [ne_eq, not_true_eq_false, if_false, Option.bind_some, Base.insertNull, ec, en]
    by_cases hE : Ex m k
    · rw [if_pos (hc'.mpr hE)]
      by_cases hmem : ∃ u, (k, u) ∈ m
      · rw [if_neg (by simp [hn'.mpr ⟨hmem, hE⟩])]
        obtain ⟨u, hu⟩ := hmem
        refine ⟨h, F, i, ?_, ?_, hw⟩
        · simp [chainLoop, hi]
        · rw [(get_some R.W).mpr hu]; simpa using R
      · have hnf : hn = false := by
          cases hn with
          | false => rfl
          | true => exact absurd (hn'.mp rfl).1 hmem
        have hkn : ∀ u, (k, u) ∉ m := fun u w => hmem ⟨u, w⟩
        rw [if_pos (by simp [hnf])]
        have hT256 : tr h (k ++ [256]) = none := by
          cases ht : tr h (k ++ [256]) with
          | none => rfl
          | some y => exact absurd ((R.C.null R.W).mp (by rw [ht]; simp)).1 hmem
        obtain ⟨h1, F1, e2, I1, s1, w1, t1⟩ := addNull_spec R.I hw (fun q => R.C.full R.W q) hT256
          (v := -(v : Int)) (by omega)
        obtain ⟨h2, e3, I2, s2, w2, t2⟩ := setSize_spec I1 (h1.base 0 + 1)
        refine ⟨h2, F1, i, ?_, ?_, by rw [w2]; exact w1⟩
        · simp [e2, bump, e3, chainLoop, hi]
        · rw [get_none.mpr hkn]
          simp only [Option.isSome_none, Bool.false_eq_true, if_false]
          refine ⟨I2, R.W.cons hk hb hkn, ?_, ?_⟩
          · rw [s2, s1, R.size]; simp
          · have hin := (R.C.inner k).mpr hE
            refine R.C.insert_null R.W hb hkn hin ?_ ?_
            · rw [t2, t1, if_neg (by simp), if_pos rfl]; simp
            · intro s hs
              rw [t2, t1]
              by_cases q : s = k
              · subst q; rw [if_pos rfl, hin]
              · rw [if_neg q, if_neg hs]
    · have hcf : hc = false := by
        cases hc with
        | false => rfl
        | true => exact absurd (hc'.mp rfl) hE
      rw [if_neg (by simp [hcf]), if_neg (by simp)]
      obtain ⟨u, hu⟩ := ((R.C.mem_of_node hb hk).mp hT).resolve_left hE
      refine ⟨h, F, i, ?_, ?_, hw⟩
      · simp [chainLoop, hi]
      · rw [(get_some R.W).mpr hu]; simpa using R
  | cons l ls =>
    have hl0 := hnone l ls rfl
    have hlb : l < 256 := hb l (by rw [hkp]; simp)
    have hTp : tr h p ≠ none := by rw [tr_of_walk hw]; simp
    have hplk : p ++ [l] <+: k := ⟨ls, by simp [hkp]⟩
    have hkn : ∀ u, (k, u) ∉ m := by
      intro u hm
      apply (R.C.of_key hm)
      obtain ⟨t, rfl⟩ := hplk
      exact tr_none_append hl0
    obtain ⟨h0, e0, I0, s0, w0, t0⟩ := setSize_spec R.I (h.base 0 + 1)
    have R0 : Canon (tr h0) m := R.C.congr t0
    have hw0 : walk h0 1 p = some i := by rw [w0]; exact hw
    rw [if_pos (by simp)]
    simp only [bump, e0, Option.bind_some]
    -- the state after the "empty transition" part
    have hmid : ∃ h1 F1, Base.insertNull h0 i (l :: ls) v = some h1 ∧ Inv h1 F1 ∧
        h1.base 0 = h0.base 0 ∧ walk h1 1 p = some i ∧ tr h1 (p ++ [l]) = none ∧
        (tr h1 p = some .inner → ∃ l', tr h1 (p ++ [l']) ≠ none) ∧
        (∀ x, p ≠ [] → tr h p = some (.leaf x) → tr h1 (p ++ [256]) = some (.leaf x)) ∧
        (∀ s, s ≠ p → (s = p ++ [256] → p = [] ∨ tr h p = some .inner) → tr h1 s = tr h s) := by
      obtain ⟨hc, ec, hc'⟩ := hasChild_spec I0 (I0.root_used hw0)
      have hc2 : hc = true ↔ tr h p = some .inner := by
        rw [hc', R.C.child R.W]
        constructor
        · rintro ⟨l, a, b⟩; exact ⟨l, a, by rw [← t0]; exact (child_isSome_tr hw0).mp b⟩
        · rintro ⟨l, a, b⟩; exact ⟨l, a, (child_isSome_tr hw0).mpr (by rw [t0]; exact b)⟩
      have en := hasNull_spec I0 (I0.root_used hw0)
      unfold Base.insertNull
      simp only [ec, en, Option.bind_some]
      by_cases hin : tr h p = some .inner
      · rw [if_pos (hc2.mpr hin), if_neg (by simp)]
        refine ⟨h0, F, rfl, I0, rfl, hw0, by rw [t0]; exact hl0, ?_, ?_, ?_⟩
        · intro _; obtain ⟨l', q⟩ := R.C.full R.W hin; exact ⟨l', by rw [t0]; exact q⟩
        · intro x _ q; rw [hin] at q; simp at q
        · intro s _ _; exact t0 s
      · rw [if_neg (by rw [hc2]; exact hin)]
        obtain ⟨x, hx⟩ : ∃ x, tr h p = some (.leaf x) := by
          cases ht : tr h p with
          | none => exact absurd ht hTp
          | some y =>
            cases y with
            | inner => exact absurd ht hin
            | leaf x => exact ⟨x, rfl⟩
        have hx0 : tr h0 p = some (.leaf x) := by rw [t0]; exact hx
        have hnf : (child h0 i 256).isSome = false := by
          rw [no_child_of_leaf hw0 hx0]; rfl
        by_cases hp : p = []
        · have hi1 : i = 1 := by subst hp; simpa [walk] using hw.symm
          rw [if_neg (by simp [hi1])]
          refine ⟨h0, F, rfl, I0, rfl, hw0, by rw [t0]; exact hl0, ?_, ?_, ?_⟩
          · intro q; rw [hx0] at q; simp at q
          · intro x q _; exact absurd hp q
          · intro s _ _; exact t0 s
        · have hi1 : i ≠ 1 := by
            rintro rfl
            exact hp (R.I.walk_inj hw (by rfl))
          rw [if_pos ⟨hi1, hnf, by simp⟩]
          have hbase := tr_leaf_base hw0 hx0
          have hlt := (I0.root_used hw0).lt I0.fl
          rw [rdB, if_pos hlt.2]
          simp only [Option.bind_some]
          rw [if_pos (by omega)]
          obtain ⟨h1, F1, e2, I1, s1, w1, t1⟩ := addNull_spec I0 hw0 (by rw [hx0]; simp)
            (tr_leaf_child hx0) (v := h0.base i) (by omega)
          refine ⟨h1, F1, e2, I1, s1, w1, ?_, ?_, ?_, ?_⟩
          · rw [t1, if_neg (by simp), if_neg (by simp; omega), t0]; exact hl0
          · intro _; exact ⟨256, by rw [t1, if_neg (by simp), if_pos rfl]; simp⟩
          · intro y _ hy
            rw [hx] at hy
            simp at hy
            rw [t1, if_neg (by simp), if_pos rfl, hbase.1, hy]; simp
          · intro s hs hc
            rw [t1, if_neg hs, if_neg, t0]
            intro e
            rcases hc e with q | q
            · exact hp q
            · exact hin q
    obtain ⟨h1, F1, em, I1, s1, w1, n1, f1, x1, t1⟩ := hmid
    rw [em]
    simp only [Option.bind_some]
    obtain ⟨h2, F2, b, j, e2, I2, s2, c0, c1, c2, c3, c4, _⟩ := chain_spec ls l h1 F1 0 i p I1 w1
      (fun b hm => by have := hb b (by rw [hkp]; simp at hm ⊢; tauto); omega) n1 f1
    rw [e2]
    simp only [Option.bind_some, ne_eq, c0, not_false_iff, if_true]
    rw [← hkp] at c1 c2 c3 c4
    have hbj := tr_leaf_base c1 c2
    have hlt := (I2.root_used c1).lt I2.fl
    obtain ⟨h3, e3, I3, s3, w3, t3⟩ := setB_spec I2 c1 (v := -(v : Int)) (by omega)
      (no_child_of_leaf c1 c2)
    have hj : j ≠ 1 := by
      rintro rfl
      exact hk (I2.walk_inj c1 (by rfl))
    refine ⟨h3, F2, j, ?_, ?_, by rw [w3]; exact c1⟩
    · rw [rdB, if_pos hlt.2]
      simp only [Option.bind_some]
      rw [if_pos (by omega), e3]
      simp [hj]
    · rw [get_none.mpr hkn]
      simp only [Option.isSome_none, Bool.false_eq_true, if_false]
      refine ⟨I3, R.W.cons hk hb hkn, ?_, ?_⟩
      · rw [s3, s2, s1, s0, R.size]; simp
      · have hs256 : ¬ (p <+: p ++ [256] ∧ p ++ [256] <+: k) := by
          rintro ⟨_, w⟩
          have := hb 256 (w.subset (by simp)); omega
        have hk256 : p ++ [256] ≠ k := by
          intro w; exact hs256 ⟨List.prefix_append _ _, w ▸ List.prefix_rfl⟩
        refine R.C.insert_chain R.W hb hkp hTp hl0 ?_ ?_ ?_ ?_
        · rw [t3, if_pos rfl]; simp
        · intro s a b c
          rw [t3, if_neg c]; exact c3 s a b c
        · intro x hp hx
          rw [t3, if_neg hk256, c4 _ hs256]
          exact x1 x hp hx
        · intro s hs hc
          have h1' : s ≠ k := by
            rintro rfl; exact hs ⟨hkp ▸ List.prefix_append _ _, List.prefix_rfl⟩
          have h2' : s ≠ p := by
            rintro rfl; exact hs ⟨List.prefix_rfl, hkp ▸ List.prefix_append _ _⟩
          rw [t3, if_neg h1', c4 s hs]
          exact t1 s h2' hc

end

end Verif.Proof.Trie
