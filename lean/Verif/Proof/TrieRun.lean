import Verif.Proof.TrieErase
import Mathlib.Data.List.Perm.Subperm
import Mathlib.Data.List.Nodup

/-!
`erase`, `find` and value access of `trie_base` on a represented map.
-/
namespace Verif.Proof.Trie
open Verif.Spec Verif.Model.Trie Verif.Spec.KeyMap

theorem walk_take {h s i} (hw : walk h 1 s = some i) (n : Nat) : ∃ j, walk h 1 (s.take n) = some j := by
  have : s = s.take n ++ s.drop n := (List.take_append_drop n s).symm
  rw [this, walk_append] at hw
  cases hq : walk h 1 (s.take n) with
  | none => rw [hq] at hw; simp at hw
  | some j => exact ⟨j, rfl⟩

/-- A path is shorter than the array. -/
theorem Inv.depth {h F} (I : Inv h F) {s i} (hw : walk h 1 s = some i) : s.length < h.len := by
  let f : Nat → Nat := fun n => (walk h 1 (s.take n)).getD 0
  have nd : ((List.range (s.length + 1)).map f).Nodup := by
    refine List.Nodup.map_on ?_ List.nodup_range
    intro a ha b hb e
    obtain ⟨x, hx⟩ := walk_take hw a
    obtain ⟨y, hy⟩ := walk_take hw b
    simp only [f, hx, hy, Option.getD_some] at e
    subst e
    have := congrArg List.length (I.walk_inj hx hy)
    simp at this ha hb
    omega
  have sub : (List.range (s.length + 1)).map f ⊆ List.range h.len := by
    intro j hj
    simp only [List.mem_map, List.mem_range] at hj ⊢
    obtain ⟨n, _, rfl⟩ := hj
    obtain ⟨x, hx⟩ := walk_take hw n
    simp only [f, hx, Option.getD_some]
    exact ((I.root_used hx).lt I.fl).2
  have := (List.subperm_of_subset nd sub).length_le
  simp at this
  omega

theorem child_none_of {h F} (I : Inv h F) {q i} (hw : walk h 1 q = some i)
    (hc : ∀ l, l < 256 → tr h (q ++ [l]) = none) (hn : tr h (q ++ [256]) = none) :
    ∀ l, child h i l = none := by
  intro l
  cases e : child h i l with
  | none => rfl
  | some j =>
    have h2 := (child_isSome_tr (l := l) hw).mp (by rw [e]; rfl)
    obtain ⟨b, _, _, hl, _⟩ := child_eq_some.mp e
    by_cases q : l < 256
    · exact absurd (hc l q) h2
    · have : l = 256 := by omega
      subst this; exact absurd hn h2

/-- The loop of `erase`, going up from `q` to the root. -/
theorem eraseLoop_spec {T : Tree} {m : KMap} (C : Canon T m) (W : WF m) {k v} (hk : (k, v) ∈ m) :
    ∀ (n : Nat) (q : List Nat) (h : Heap) (F : Nat → Prop) (i : Nat), q.length < n → Inv h F →
      walk h 1 q = some i → q <+: k →
      (∀ k' u, (k', u) ∈ m → q <+: k' → k' ≠ q → k' = k) →
      (∀ s, q <+: s → s <+: k → s ≠ q → tr h s = none) →
      (∀ s, ¬ (q <+: s ∧ s <+: k ∧ s ≠ q) → tr h s = T s) →
      ∃ h' F', Base.eraseLoop n h i = some h' ∧ Inv h' F' ∧ h'.base 0 = h.base 0 ∧
        ((∀ k' u, (k', u) ∈ m → k' = k) ∨ Canon (tr h') (eraseLossy m k)) := by
  intro n
  induction n with
  | zero => intro q h F i hq; omega
  | succ n ih =>
    intro q h F i hn I hw hqk hO t1 t2
    have hb := W.byte k v hk
    have hqb : ∀ b ∈ q, b < 256 := fun b hm => hb b (hqk.subset hm)
    have u := I.root_used hw
    have h256 : tr h (q ++ [256]) = T (q ++ [256]) := by
      apply t2
      rintro ⟨_, w, _⟩
      have := hb 256 (w.subset (by simp)); omega
    have hTq : tr h q = T q := t2 q (by simp)
    -- no byte transitions below q
    have hno : ∀ l, l < 256 → tr h (q ++ [l]) = none := by
      intro l hl
      by_cases w : q ++ [l] <+: k
      · exact t1 _ (List.prefix_append _ _) w (by simp)
      · rw [t2 _ (fun z => w z.2.1)]
        cases hT : T (q ++ [l]) with
        | none => rfl
        | some y =>
          exfalso
          have hbl : ∀ b ∈ q ++ [l], b < 256 := by
            intro b hm; simp at hm; rcases hm with hm | hm
            · exact hqb b hm
            · omega
          rcases (C.mem_of_node hbl (by simp)).mp (by rw [hT]; simp) with ⟨k', u', a, b, c⟩ | ⟨u', a⟩
          · have : k' ≠ q := by
              rintro rfl
              have := b.length_le; simp at this; omega
            have := hO k' u' a ((List.prefix_append _ _).trans b) this
            exact w (this ▸ b)
          · have := hO _ u' a (List.prefix_append _ _) (by simp)
            exact w (this ▸ List.prefix_rfl)
    have en := hasNull_spec I u
    have hnull : (child h i 256).isSome = true ↔ (∃ v, (q, v) ∈ m) ∧ Ex m q := by
      rw [child_isSome_tr hw, h256, C.null W]
    rw [Base.eraseLoop, en]
    simp only [Option.bind_some]
    by_cases hN : (child h i 256).isSome = true
    · rw [if_pos hN]
      obtain ⟨⟨w, hqm⟩, hEq⟩ := hnull.mp hN
      have hqne : q ≠ k := by
        rintro rfl
        obtain ⟨k', u', a, b, c⟩ := hEq
        exact c (hO k' u' a b c.symm).symm
      obtain ⟨j, hj⟩ := Option.isSome_iff_exists.mp hN
      obtain ⟨b, eb, b1, _, bl, bc, rfl⟩ := child_eq_some.mp hj
      have hlt := u.lt I.fl
      rw [rdB, if_pos hlt.2]
      simp only [Option.bind_some, eb, Int.toNat_natCast, nullValue]
      have hw2 : walk h 1 (q ++ [256]) = some (b + 256) := by rw [walk_snoc, hw]; exact hj
      have hleaf : ∃ x, tr h (q ++ [256]) = some (.leaf x) := by
        rw [h256]
        exact ⟨w, (C.leaf _ _).mpr (Or.inr (Or.inl ⟨q, w, rfl, rfl, hqm, hEq⟩))⟩
      obtain ⟨x, hx⟩ := hleaf
      obtain ⟨h1, b', e1, I1, s1, bs1, w1, r1⟩ := free_spec I hw2 (by omega) (no_child_of_leaf hw2 hx)
      rw [e1]
      simp only [Option.bind_some]
      have hw3 : walk h1 1 q = some i := by rw [w1, if_neg (by simp)]; exact hw
      obtain ⟨hc, ec, hc'⟩ := hasChild_spec I1 (I1.root_used hw3)
      have hno1 : ∀ l, l < 256 → tr h1 (q ++ [l]) = none := by
        intro l hl
        rw [r1]; split
        · rfl
        · exact hno l hl
      have hcf : hc = false := by
        cases hc with
        | false => rfl
        | true =>
          obtain ⟨l, a, b⟩ := hc'.mp rfl
          exact absurd (hno1 l a) ((child_isSome_tr hw3).mp b)
      rw [ec]
      simp only [Option.bind_some]
      rw [if_pos hcf]
      obtain ⟨h2, e2, I2, s2, w2, r2⟩ := setB_spec I1 hw3 (v := 0) (by omega)
        (child_none_of I1 hw3 hno1 (by rw [r1, if_pos rfl]))
      refine ⟨h2, _, e2, I2, s2.trans s1, Or.inr ?_⟩
      refine C.erase_lone W hk hqm hqk hqne hO ?_ ?_ ?_ ?_
      · intro s a b c
        rw [r2, if_neg c, r1]
        split
        · rfl
        · exact t1 s a b c
      · rw [r2, if_neg (by simp), r1, if_pos rfl]
      · rw [r2, if_pos rfl]; simp
      · intro s a b
        have : s ≠ q := by rintro rfl; exact a ⟨List.prefix_rfl, hqk⟩
        rw [r2, if_neg this, r1, if_neg b]
        exact t2 s (fun z => a ⟨z.1, z.2.1⟩)
    · rw [if_neg hN]
      have hqm : q = k ∨ ∀ u, (q, u) ∉ m := by
        by_cases e : q = k
        · exact Or.inl e
        · right
          intro u hm
          exact hN (hnull.mpr ⟨⟨u, hm⟩, k, v, hk, hqk, e⟩)
      have hO' : ∀ k' u, (k', u) ∈ m → q <+: k' → k' = k := by
        intro k' u a b
        by_cases e : k' = q
        · rcases hqm with z | z
          · exact e.trans z
          · subst e; exact absurd a (z u)
        · exact hO k' u a b e
      have h256n : tr h (q ++ [256]) = none := by
        cases hT : tr h (q ++ [256]) with
        | none => rfl
        | some y => exact absurd ((child_isSome_tr hw).mpr (by rw [hT]; simp)) hN
      have hchild := child_none_of I hw hno h256n
      have hlt := u.lt I.fl
      rcases List.eq_nil_or_concat q with rfl | ⟨q0, l, hqe⟩
      · have hi : i = 1 := by simpa [walk] using hw.symm
        subst hi
        have : hasSibling h 1 = some false := by simp [hasSibling, hlt.2]
        have hl0 : 0 < h.len := by omega
        refine ⟨h, F, ?_, I, rfl, Or.inl ?_⟩
        · simp [this, rdC, hlt.2, I.root, hl0]
        · intro k' u' a; exact hO' k' u' a List.nil_prefix
      · have hqe : q = q0 ++ [l] := by simpa using hqe
        subst hqe
        have hw0 := hw
        rw [walk_snoc] at hw0
        cases hp : walk h 1 q0 with
        | none => rw [hp] at hw0; simp at hw0
        | some p =>
        rw [hp] at hw0
        simp only [Option.bind_some] at hw0
        have up := I.root_used hp
        obtain ⟨ui, i2, ci⟩ := I.child_used up hw0
        obtain ⟨hs, es, hs'⟩ := hasSibling_spec I up hw0
        have hplt := up.lt I.fl
        obtain ⟨h1, b', e1, I1, s1, bs1, w1, r1⟩ := free_spec I hw (by omega) hchild
        have hp1 : walk h1 1 q0 = some p := by rw [w1, if_neg (by simp)]; exact hp
        simp only [es, Option.bind_some, rdC, hlt.2, if_true]
        have hr1 : ∀ s, q0 ++ [l] <+: s → s <+: k → tr h1 s = none := by
          intro s a b
          rw [r1]; split
          · rfl
          · exact t1 s a b (by assumption)
        have hr2 : ∀ s, ¬ (q0 ++ [l] <+: s ∧ s <+: k) → tr h1 s = T s := by
          intro s a
          rw [r1, if_neg]
          · exact t2 s (fun z => a ⟨z.1, z.2.1⟩)
          · rintro rfl; exact a ⟨List.prefix_rfl, hqk⟩
        have hq0k : q0 <+: k := (List.prefix_append _ _).trans hqk
        cases hs with
        | true =>
          have hl0 : (0 : Int) < h.len := by omega
          refine ⟨h1, _, ?_, I1, s1, Or.inr ?_⟩
          · have : i ≠ 1 := by omega
            simp [this, e1]; omega
          · obtain ⟨l', a, b, c⟩ := hs'.mp rfl
            have c' := (child_isSome_tr hp).mp c
            have hl' : ¬ (q0 ++ [l] <+: q0 ++ [l'] ∧ q0 ++ [l'] <+: k ∧ q0 ++ [l'] ≠ q0 ++ [l]) := by
              rintro ⟨z, _, _⟩
              have := z.eq_of_length_le (by simp)
              simp at this; exact b this.symm
            rw [t2 _ hl'] at c'
            have hbl : ∀ b ∈ q0 ++ [l'], b < 256 := by
              intro b hm; simp at hm; rcases hm with hm | hm
              · exact hqb b (by simp [hm])
              · omega
            have hnk : ¬ (q0 ++ [l'] <+: k) := by
              intro z
              have := List.prefix_of_prefix_length_le z hqk (by simp)
              have := this.eq_of_length_le (by simp)
              simp at this; exact b this
            have hk2 : ∃ k2 v2, (k2, v2) ∈ m ∧ q0 ++ [l'] <+: k2 := by
              rcases (C.mem_of_node hbl (by simp)).mp c' with ⟨k', u', a, b, c⟩ | ⟨u', a⟩
              · exact ⟨k', u', a, b⟩
              · exact ⟨_, u', a, List.prefix_rfl⟩
            obtain ⟨k2, v2, g1, g2⟩ := hk2
            refine C.erase_path W hk hqk hO' g1 ?_ ((List.prefix_append _ _).trans g2) ?_ hr1 hr2
            · rintro rfl; exact hnk g2
            · rintro rfl
              have := g2.length_le; simp at this; omega
        | false =>
          rw [ci]
          have hpl : (0 : Int) ≤ p ∧ (p : Int) < h.len := by omega
          have hi1 : i ≠ 1 := by omega
          have hp0 : (p : Int) ≠ 0 := by omega
          simp only [if_true, hpl, and_self, hi1, ne_eq, not_false_iff, e1, Option.map_some,
            Option.bind_some, hp0, if_false, Int.toNat_natCast]
          have hO0 : ∀ k' u, (k', u) ∈ m → q0 <+: k' → k' ≠ q0 → k' = k := by
            intro k' u' a b c
            apply hO' k' u' a
            obtain ⟨t, rfl⟩ := b
            cases t with
            | nil => simp at c
            | cons l' t =>
              have hl' : l' = l := by
                apply Classical.byContradiction
                intro hne
                have hnode : T (q0 ++ [l']) ≠ none := by
                  by_cases e : t = []
                  · subst e; exact C.of_key a
                  · rw [(C.inner _).mpr ⟨_, u', a, ⟨t, by simp⟩, by simpa using e⟩]; simp
                have hl' : ¬ (q0 ++ [l] <+: q0 ++ [l'] ∧ q0 ++ [l'] <+: k ∧ q0 ++ [l'] ≠ q0 ++ [l]) := by
                  rintro ⟨z, _, _⟩
                  have := z.eq_of_length_le (by simp)
                  simp at this; exact hne this.symm
                rw [← t2 _ hl'] at hnode
                have := hs'.mpr ⟨l', W.byte _ _ a l' (by simp), hne, (child_isSome_tr hp).mpr hnode⟩
                simp at this
              subst hl'
              exact ⟨t, by simp⟩
          obtain ⟨h2, F2, e2, I2, s2, r⟩ := ih q0 h1 _ p (by simp at hn; omega) I1 hp1 hq0k hO0
            (by
              intro s a b c
              apply hr1 s _ b
              obtain ⟨t, ht⟩ := hqk
              rcases prefix_cases (p := q0) (l := l) (ls := t) (by simp [← ht]) b with z | z
              · exact absurd (z.eq_of_length_le a.length_le) c
              · exact z)
            (by
              intro s a
              apply hr2
              rintro ⟨z1, z2⟩
              refine a ⟨(List.prefix_append _ _).trans z1, z2, ?_⟩
              rintro rfl
              have := z1.length_le; simp at this; omega)
          exact ⟨h2, F2, e2, I2, s2.trans s1, r⟩

/-- `Rep` without the size field. -/
structure Shape (h : Heap) (F : Nat → Prop) (m : KMap) : Prop where
  I : Inv h F
  W : WF m
  C : Canon (tr h) m

theorem Rep.shape {h F m} (R : Rep h F m) : Shape h F m := ⟨R.I, R.W, R.C⟩

section
variable {h : Heap} {F : Nat → Prop} {m : KMap}

theorem Shape.isTail (R : Shape h F m) {k i} (hw : walk h 1 k = some i) (hb : ∀ b ∈ k, b < 256) :
    ∃ r, isTail h i = some r ∧ (r = true ↔ ∃ v, (k, v) ∈ m) := by
  obtain ⟨r, e, hr⟩ := isTail_spec R.I (R.I.root_used hw)
  refine ⟨r, e, hr.trans ?_⟩
  rw [child_isSome_tr hw, R.C.null R.W]
  constructor
  · rintro (⟨a, b⟩ | ⟨a, _⟩)
    · have hk : k ≠ [] := by rintro rfl; exact b (by simpa [walk] using hw.symm)
      have hT : tr h k = some (.leaf (-h.base i)) := by
        rw [tr_of_walk hw, kind_leaf.mpr ⟨a, rfl⟩]
      have hE : ¬ Ex m k := by
        intro q; rw [(R.C.inner k).mpr q] at hT; simp at hT
      exact ((R.C.mem_of_node hb hk).mp (by rw [hT]; simp)).resolve_left hE
    · exact a
  · rintro ⟨v, hv⟩
    by_cases hE : Ex m k
    · exact Or.inr ⟨⟨v, hv⟩, hE⟩
    · left
      have hT := (R.C.leaf k v).mpr (Or.inl ⟨v, rfl, hv, hE⟩)
      have := tr_leaf_base hw hT
      refine ⟨by omega, ?_⟩
      rintro rfl
      exact R.W.ne k v hv (R.I.walk_inj hw rfl)

/-- `lookup` stops at the longest prefix of the key that labels a node. -/
theorem Shape.lookup (R : Shape h F m) {k} (hb : ∀ b ∈ k, b < 256) :
    ∃ i p r, Base.lookup h k = some (i, r) ∧ k = p ++ r ∧ walk h 1 p = some i ∧
      (∀ l ls, r = l :: ls → tr h (p ++ [l]) = none) := by
  obtain ⟨i, p, r, a, b, c, d⟩ := skip_spec R.I k [] 1 rfl (fun b m => by have := hb b m; omega)
  exact ⟨i, p, r, a, b, by simpa using c, by simpa using d⟩

theorem Shape.not_mem_of_rest (R : Shape h F m) {p l ls} (hn : tr h (p ++ [l]) = none) (v : Nat) :
    (p ++ l :: ls, v) ∉ m := by
  intro hm
  apply R.C.of_key hm
  have : p ++ l :: ls = p ++ [l] ++ ls := by simp
  rw [this]; exact tr_none_append hn

theorem Rep.isTail (R : Rep h F m) {k i} (hw : walk h 1 k = some i) (hb : ∀ b ∈ k, b < 256) :
    ∃ r, isTail h i = some r ∧ (r = true ↔ ∃ v, (k, v) ∈ m) := R.shape.isTail hw hb

theorem Rep.lookup (R : Rep h F m) {k} (hb : ∀ b ∈ k, b < 256) :
    ∃ i p r, Base.lookup h k = some (i, r) ∧ k = p ++ r ∧ walk h 1 p = some i ∧
      (∀ l ls, r = l :: ls → tr h (p ++ [l]) = none) := R.shape.lookup hb

theorem Rep.not_mem_of_rest (R : Rep h F m) {p l ls} (hn : tr h (p ++ [l]) = none) (v : Nat) :
    (p ++ l :: ls, v) ∉ m := R.shape.not_mem_of_rest hn v

theorem Rep.find (R : Rep h F m) {k} (hb : ∀ b ∈ k, b < 256) :
    (∃ v i, (k, v) ∈ m ∧ walk h 1 k = some i ∧ 2 ≤ i ∧ Base.find h k = some i) ∨
    ((∀ v, (k, v) ∉ m) ∧ Base.find h k = some 0) := by
  obtain ⟨i, p, r, e, hk, hw, hn⟩ := R.lookup hb
  unfold Base.find
  rw [e]
  simp only [Option.bind_some]
  cases r with
  | nil =>
    simp only [List.append_nil] at hk
    subst hk
    obtain ⟨t, et, ht⟩ := R.isTail hw hb
    simp only [if_true, et, Option.map_some]
    cases t with
    | true =>
      left
      obtain ⟨v, hv⟩ := ht.mp rfl
      refine ⟨v, i, hv, hw, ?_, rfl⟩
      have h1 := ((R.I.root_used hw).lt R.I.fl).1
      have : i ≠ 1 := by
        rintro rfl
        exact R.W.ne k v hv (R.I.walk_inj hw rfl)
      omega
    | false =>
      right
      refine ⟨fun v hv => ?_, rfl⟩
      have := ht.mpr ⟨v, hv⟩
      simp at this
  | cons l ls =>
    right
    refine ⟨fun v => ?_, by simp⟩
    rw [hk]
    exact R.not_mem_of_rest (hn l ls rfl) v

theorem Shape.contains (R : Shape h F m) {k} (hb : ∀ b ∈ k, b < 256) :
    Base.contains h k = some (KeyMap.get m k).isSome := by
  obtain ⟨i, p, r, e, hk, hw, hn⟩ := R.lookup hb
  unfold Base.contains
  rw [e]
  simp only [Option.bind_some]
  cases r with
  | nil =>
    simp only [List.append_nil] at hk
    subst hk
    obtain ⟨t, et, ht⟩ := R.isTail hw hb
    simp only [if_true, et, Option.some.injEq]
    cases hg : KeyMap.get m k with
    | none =>
      cases t with
      | false => rfl
      | true => obtain ⟨v, hv⟩ := ht.mp rfl; exact absurd hv (get_none.mp hg v)
    | some v => rw [ht.mpr ⟨v, (get_some R.W).mp hg⟩]; rfl
  | cons l ls =>
    have : KeyMap.get m k = none := by
      rw [get_none, hk]; exact R.not_mem_of_rest (hn l ls rfl)
    simp [this]

theorem Rep.contains (R : Rep h F m) {k} (hb : ∀ b ∈ k, b < 256) :
    Base.contains h k = some (KeyMap.get m k).isSome := R.shape.contains hb

theorem rep_empty : Rep Heap.empty (fun _ => False) [] := by
  refine ⟨inv_empty, ⟨by simp, by simp, by simp⟩, rfl, ?_⟩
  refine ⟨?_, ?_⟩
  · intro s
    rw [tr_empty]
    constructor
    · intro h; split at h <;> simp at h
    · rintro ⟨_, _, h, _⟩; simp at h
  · intro s x
    rw [tr_empty]
    constructor
    · intro h
      split at h
      · simp at h; exact Or.inr (Or.inr ⟨by assumption, h.symm, rfl⟩)
      · simp at h
    · rintro (⟨_, _, h, _⟩ | ⟨_, _, _, _, h, _⟩ | ⟨a, b, _⟩)
      · simp at h
      · simp at h
      · simp [a, b]

theorem Rep.erase (R : Rep h F m) {k} (hb : ∀ b ∈ k, b < 256) :
    ∃ h' F', Base.eraseKey h k = some h' ∧ Rep h' F' (eraseLossy m k) := by
  unfold Base.eraseKey
  rcases R.find hb with ⟨v, i, hk, hw, i2, ef⟩ | ⟨hk, ef⟩
  · rw [ef]
    simp only [Option.bind_some, Base.eraseAt]
    have hlt := (R.I.root_used hw).lt R.I.fl
    obtain ⟨t, et, ht⟩ := R.isTail hw hb
    have ht1 := ht.mpr ⟨v, hk⟩
    rw [if_pos hlt.2, if_neg (by omega), et]
    simp only [Option.bind_some]
    rw [if_neg (by simp [ht1])]
    have hmain : ∃ h1 F1, Base.eraseLoop h.len h i = some h1 ∧ Inv h1 F1 ∧ h1.base 0 = h.base 0 ∧
        ((∀ k' u, (k', u) ∈ m → k' = k) ∨ Canon (tr h1) (eraseLossy m k)) := by
      by_cases hE : Ex m k
      · -- the empty transition goes
        have hd := R.I.depth hw
        obtain ⟨n, hlen⟩ : ∃ n, h.len = n + 1 := ⟨h.len - 1, by omega⟩
        have hN : (child h i 256).isSome = true :=
          (child_isSome_tr hw).mpr ((R.C.null R.W).mpr ⟨⟨v, hk⟩, hE⟩)
        obtain ⟨j, hj⟩ := Option.isSome_iff_exists.mp hN
        obtain ⟨b, eb, b1, _, bl, bc, rfl⟩ := child_eq_some.mp hj
        have hw2 : walk h 1 (k ++ [256]) = some (b + 256) := by rw [walk_snoc, hw]; exact hj
        have hleaf : tr h (k ++ [256]) = some (.leaf v) :=
          (R.C.leaf _ _).mpr (Or.inr (Or.inl ⟨k, v, rfl, rfl, hk, hE⟩))
        obtain ⟨h1, b', e1, I1, s1, bs1, w1, r1⟩ := free_spec R.I hw2 (by omega)
          (no_child_of_leaf hw2 hleaf)
        have hw3 : walk h1 1 k = some i := by rw [w1, if_neg (by simp)]; exact hw
        obtain ⟨hc, ec, hc'⟩ := hasChild_spec I1 (I1.root_used hw3)
        have hct : hc = true := by
          rw [hc']
          obtain ⟨a, ha, hT⟩ := (R.C.child R.W).mp ((R.C.inner k).mpr hE)
          refine ⟨a, ha, (child_isSome_tr hw3).mpr ?_⟩
          rw [r1, if_neg (by simp; omega)]; exact hT
        refine ⟨h1, _, ?_, I1, s1, Or.inr ?_⟩
        · rw [hlen, Base.eraseLoop, hasNull_spec R.I (R.I.root_used hw)]
          simp only [Option.bind_some]
          rw [if_pos hN, rdB, if_pos hlt.2]
          simp only [Option.bind_some, eb, Int.toNat_natCast, nullValue, e1, ec]
          rw [if_neg (by simp [hct])]
        · refine R.C.erase_null R.W hk hE ?_ ?_
          · rw [r1, if_pos rfl]
          · intro s hs; rw [r1, if_neg hs]
      · refine eraseLoop_spec R.C R.W hk h.len k h F i (R.I.depth hw) R.I hw List.prefix_rfl ?_ ?_ ?_
        · intro k' u a b c; exact absurd ⟨k', u, a, b, c.symm⟩ hE
        · intro s a b c; exact absurd (b.eq_of_length_le a.length_le) c
        · intro s _; rfl
    obtain ⟨h1, F1, e1, I1, s1, hr⟩ := hmain
    obtain ⟨h2, e2, I2, s2, w2, t2⟩ := setSize_spec I1 (h1.base 0 + -1)
    have hlen := erase_length R.W hk
    have hsz : h2.base 0 = (eraseLossy m k).length := by
      rw [s2, s1, R.size]; omega
    simp only [e1, Option.bind_some, bump, e2]
    by_cases hz : h2.base 0 = 0
    · rw [if_pos hz]
      have : eraseLossy m k = [] := List.length_eq_zero_iff.mp (by omega)
      rw [this]
      exact ⟨_, _, rfl, rep_empty⟩
    · rw [if_neg hz]
      refine ⟨h2, F1, rfl, I2, R.W.erase k, hsz, ?_⟩
      rcases hr with q | q
      · exfalso
        apply hz
        rw [hsz]
        have : eraseLossy m k = [] := by
          unfold eraseLossy
          rw [List.map_eq_nil_iff, List.filter_eq_nil_iff]
          rintro ⟨k', u⟩ hm
          simp [q k' u hm]
        rw [this]; rfl
      · exact q.congr t2
  · rw [ef, erase_absent hk]
    have hp := R.I.fl.pos
    refine ⟨h, F, ?_, R⟩
    simp only [Option.bind_some, Base.eraseAt]
    rw [if_pos (by omega), if_pos (by omega)]

end

end Verif.Proof.Trie
