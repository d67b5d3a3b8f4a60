import Verif.Proof.TrieWide
import Verif.Model.TrieIter

/-!
Trie iterators: order of the children, parent, label and string.
-/
namespace Verif.Proof.Trie
open Verif.Spec Verif.Model.Trie Verif.Spec.KeyMap Verif.Model.Serialize Verif.Proof.Serialize

theorem itScan_spec (h : Heap) (c : Nat) : ∀ n i, ∃ j, itScan h c n i = j ∧ i ≤ j ∧ j ≤ i + n ∧
    (j < i + n → h.check j = (c : Int)) ∧ ∀ k, i ≤ k → k < j → h.check k ≠ (c : Int) := by
  intro n
  induction n with
  | zero => intro i; exact ⟨i, rfl, by omega, by omega, by omega, by intro k a b; omega⟩
  | succ n ih =>
    intro i
    rw [itScan]
    split
    · rename_i e
      exact ⟨i, rfl, by omega, by omega, fun _ => e, by intro k a b; omega⟩
    · rename_i e
      obtain ⟨j, a, b, c', d, f⟩ := ih (i + 1)
      refine ⟨j, a, by omega, by omega, fun q => d (by omega), ?_⟩
      intro k k1 k2
      rcases Nat.lt_or_ge i k with q | q
      · exact f k q k2
      · have : k = i := by omega
        subst this; exact e

/-- `r` is the child of `p` with the least label from `lo` on, or 0. -/
def FirstFrom (h : Heap) (p lo r : Nat) : Prop :=
  (r = 0 ∧ ∀ l, lo ≤ l → l < 256 → child h p l = none) ∨
  (∃ l, lo ≤ l ∧ l < 256 ∧ child h p l = some r ∧ r ≠ 0 ∧ ∀ l', lo ≤ l' → l' < l → child h p l' = none)

theorem itFind_spec {h : Heap} {p b : Nat} (hb : h.base p = (b : Int)) (b1 : 1 ≤ b) (lo : Nat)
    (hlo : lo ≤ 256) (hl : b + lo ≤ h.len) : FirstFrom h p lo (itFind h (b + lo) (b + nullValue) p) := by
  have hnv : nullValue = 256 := rfl
  unfold itFind
  rw [hnv]
  dsimp only
  obtain ⟨j, e, j1, j2, j3, j4⟩ := itScan_spec h p (min (b + 256) h.len - (b + lo)) (b + lo)
  rw [e]
  have hm : b + lo ≤ min (b + 256) h.len := by omega
  by_cases q : j = min (b + 256) h.len
  · rw [if_neg (by omega)]
    refine Or.inl ⟨rfl, fun l l1 l2 => ?_⟩
    cases hc : child h p l with
    | none => rfl
    | some i =>
      obtain ⟨b', e1, _, _, e2, e3, rfl⟩ := child_eq_some.mp hc
      have : b' = b := by omega
      subst this
      exact absurd e3 (j4 (b' + l) (by omega) (by omega))
  · rw [if_pos q]
    have hj : j < min (b + 256) h.len := by omega
    refine Or.inr ⟨j - b, by omega, by omega, ?_, by omega, ?_⟩
    · refine child_eq_some.mpr ⟨b, hb, b1, by omega, by omega, ?_, by omega⟩
      have : b + (j - b) = j := by omega
      rw [this]
      exact j3 (by omega)
    · intro l' l1 l2
      cases hc : child h p l' with
      | none => rfl
      | some i =>
        obtain ⟨b', e1, _, _, e2, e3, rfl⟩ := child_eq_some.mp hc
        have : b' = b := by omega
        subst this
        exact absurd e3 (j4 (b' + l') (by omega) (by omega))

section
variable {h : Heap} {F : Nat → Prop}

theorem itBegin_core (I : Inv h F) {i} (u : Used h F i) :
    FirstFrom h i 0 (if 1 ≤ h.base i then itFind h (h.base i).toNat ((h.base i).toNat + nullValue) i else 0) := by
  split
  · rename_i hb
    obtain ⟨b, hb'⟩ : ∃ b : Nat, h.base i = b := ⟨(h.base i).toNat, by omega⟩
    have := I.bl i u
    rw [hb', Int.toNat_natCast]
    exact itFind_spec (lo := 0) hb' (by omega) (by omega) (by omega)
  · rename_i hb
    refine Or.inl ⟨rfl, fun l _ _ => ?_⟩
    unfold child
    rw [if_neg (fun q => hb q.1)]

theorem itBegin_spec (I : Inv h F) {i} (u : Used h F i) :
    ∃ r, itBegin h i = some r ∧ FirstFrom h i 0 r := by
  have hlt := u.lt I.fl
  refine ⟨_, ?_, itBegin_core I u⟩
  rw [itBegin, if_pos hlt.1, rdB, if_pos hlt.2]; rfl

/-- What the iterator reads about a child: its parent and the base of the parent. -/
theorem child_facts (I : Inv h F) {p l i} (u : Used h F p) (hc : child h p l = some i) :
    ∃ b : Nat, h.base p = b ∧ 1 ≤ b ∧ i = b + l ∧ l ≤ 256 ∧ i < h.len ∧ h.check i = (p : Int) ∧ 1 ≤ p ∧ p < h.len ∧
      itMother h i = some p ∧ itBase h i = some b := by
  obtain ⟨b, e1, b1, l1, c1, c2, rfl⟩ := child_eq_some.mp hc
  have hp := u.lt I.fl
  have hm : itMother h (b + l) = some p := by
    rw [itMother, if_pos ⟨by omega, c1⟩, c2, if_pos (by omega), Int.toNat_natCast]
  refine ⟨b, e1, b1, rfl, l1, c1, c2, hp.1, hp.2, hm, ?_⟩
  rw [itBase, hm]
  simp only [Option.bind_some]
  rw [if_pos (by omega), rdB, if_pos hp.2]
  simp only [Option.bind_some, e1]
  rw [if_pos (by omega), Int.toNat_natCast]

theorem itNext_spec (I : Inv h F) {p l i} (u : Used h F p) (hc : child h p l = some i) (hl : l < 256) :
    ∃ r, itNext h i = some r ∧ FirstFrom h p (l + 1) r := by
  obtain ⟨b, e1, b1, rfl, _, c1, c2, p1, p2, hm, hb⟩ := child_facts I u hc
  refine ⟨_, ?_, itFind_spec e1 b1 (l + 1) (by omega) (by omega)⟩
  rw [itNext, hb, hm]
  rfl

theorem itValue_spec (I : Inv h F) {p l i} (u : Used h F p) (hc : child h p l = some i) (hl : l < 256) :
    itValue h i = some l := by
  obtain ⟨b, e1, b1, rfl, _, c1, c2, p1, p2, hm, hb⟩ := child_facts I u hc
  have hnv : nullValue = 256 := rfl
  rw [itValue, hb]
  simp only [Option.bind_some]
  rw [if_pos (by omega)]
  congr 1; omega

theorem itAt_spec (I : Inv h F) {p l} (u : Used h F p) (hl : l ≤ 256) :
    itAt h p l = some ((child h p l).getD 0) := by
  have hp := u.lt I.fl
  rw [itAt, rdB, if_pos hp.2]
  simp only [Option.map_some]
  unfold child
  by_cases h1 : 1 ≤ h.base p
  · rw [if_pos h1]
    by_cases h2 : (h.base p).toNat + l < h.len ∧ h.check ((h.base p).toNat + l) = (p : Int)
    · rw [if_pos h2, if_pos ⟨h1, hl, h2⟩]; rfl
    · rw [if_neg h2, if_neg (fun q => h2 q.2.2)]; rfl
  · rw [if_neg h1, if_neg (fun q => h1 q.1)]; rfl

theorem FirstFrom.used (I : Inv h F) {p lo r} (u : Used h F p) (f : FirstFrom h p lo r) (hr : r ≠ 0) :
    ∃ l, lo ≤ l ∧ l < 256 ∧ child h p l = some r ∧ Used h F r ∧ ∀ l', lo ≤ l' → l' < l → child h p l' = none := by
  rcases f with ⟨a, _⟩ | ⟨l, a, b, c, _, d⟩
  · exact absurd a hr
  · exact ⟨l, a, b, c, (I.child_used u c).1, d⟩

/-- Strings that first differ in a smaller label. -/
theorem lexLt_split {s u : List Nat} (hl : s.length = u.length) : lexLt s u ↔
    ∃ a b c b' c', s = a ++ b :: c ∧ u = a ++ b' :: c' ∧ b < b' := by
  induction s generalizing u with
  | nil =>
    cases u with
    | nil => simp [lexLt]
    | cons _ _ => simp at hl
  | cons x s ih =>
    cases u with
    | nil => simp at hl
    | cons y u =>
      have hl' : s.length = u.length := by simpa using hl
      simp only [lexLt]
      constructor
      · rintro (q | ⟨rfl, q⟩)
        · exact ⟨[], x, s, y, u, rfl, rfl, q⟩
        · obtain ⟨a, b, c, b', c', e1, e2, q⟩ := (ih hl').mp q
          exact ⟨x :: a, b, c, b', c', by simp [e1], by simp [e2], q⟩
      · rintro ⟨a, b, c, b', c', e1, e2, q⟩
        cases a with
        | nil =>
          simp only [List.nil_append, List.cons.injEq] at e1 e2
          left; omega
        | cons z a =>
          simp only [List.cons_append, List.cons.injEq] at e1 e2
          exact Or.inr ⟨by omega, (ih hl').mpr ⟨a, b, c, b', c', e1.2, e2.2, q⟩⟩

theorem lexLt_append {a s u : List Nat} : lexLt (a ++ s) (a ++ u) ↔ lexLt s u := by
  induction a with
  | nil => rfl
  | cons x a ih => simp [lexLt, ih]

theorem lexLt_irrefl (s : List Nat) : ¬ lexLt s s := by
  induction s with
  | nil => simp [lexLt]
  | cons x s ih => simp [lexLt, ih]

theorem lexLt_trans {s t u : List Nat} (h1 : lexLt s t) (h2 : lexLt t u) : lexLt s u := by
  induction s generalizing t u with
  | nil =>
    cases t with
    | nil => simp [lexLt] at h1
    | cons y t => cases u with
      | nil => simp [lexLt] at h2
      | cons z u => simp [lexLt]
  | cons x s ih =>
    cases t with
    | nil => simp [lexLt] at h1
    | cons y t =>
      cases u with
      | nil => simp [lexLt] at h2
      | cons z u =>
        simp only [lexLt] at h1 h2 ⊢
        rcases h1 with h1 | ⟨rfl, h1⟩ <;> rcases h2 with h2 | ⟨rfl, h2⟩
        · left; omega
        · left; omega
        · left; omega
        · exact Or.inr ⟨rfl, ih h1 h2⟩

/-- Bytes strings of length `n` that are paths from `x`. -/
def Leg (h : Heap) (x n : Nat) (t : List Nat) : Prop :=
  t.length = n ∧ (∀ b ∈ t, b < 256) ∧ (walk h x t).isSome = true

/-- Every proper beginning of at least `k` labels of a leg of length `n` from `x` can be continued. -/
def Deep (h : Heap) (x k n : Nat) : Prop :=
  ∀ u y, k ≤ u.length → u.length < n → (∀ b ∈ u, b < 256) → walk h x u = some y → ∃ l, l < 256 ∧ (child h y l).isSome = true

/-- `t` is the least leg. -/
def Least (h : Heap) (x n : Nat) (t : List Nat) : Prop :=
  Leg h x n t ∧ ∀ u, Leg h x n u → t = u ∨ lexLt t u

theorem Leg.cons {x n l t y} (hc : child h x l = some y) (hl : l < 256) (ht : Leg h y n t) :
    Leg h x (n + 1) (l :: t) := by
  refine ⟨by simp [ht.1], ?_, ?_⟩
  · intro b hb
    rcases List.mem_cons.mp hb with rfl | hb
    · exact hl
    · exact ht.2.1 b hb
  · simp only [walk, hc, Option.bind_some]; exact ht.2.2

theorem Leg.uncons {x n t} (ht : Leg h x (n + 1) t) :
    ∃ l t' y, t = l :: t' ∧ l < 256 ∧ child h x l = some y ∧ Leg h y n t' := by
  obtain ⟨a, b, c⟩ := ht
  cases t with
  | nil => simp at a
  | cons l t' =>
    simp only [walk] at c
    cases hc : child h x l with
    | none => rw [hc] at c; simp at c
    | some y =>
      rw [hc] at c
      exact ⟨l, t', y, rfl, b l (by simp), hc, by simpa using a, fun z hz => b z (by simp [hz]), c⟩

theorem Least.cons {x n l t y} (hc : child h x l = some y) (hl : l < 256)
    (hmin : ∀ l', l' < l → child h x l' = none) (ht : Least h y n t) : Least h x (n + 1) (l :: t) := by
  refine ⟨ht.1.cons hc hl, ?_⟩
  intro u hu
  obtain ⟨l', t', y', rfl, a, b, c⟩ := hu.uncons
  rcases Nat.lt_trichotomy l' l with q | q | q
  · rw [hmin l' q] at b; simp at b
  · subst q
    rw [hc] at b
    obtain rfl : y = y' := by simpa using b
    rcases ht.2 t' c with z | z
    · exact Or.inl (by rw [z])
    · exact Or.inr (Or.inr ⟨rfl, z⟩)
  · exact Or.inr (Or.inl q)

theorem Deep.child {x k n l y} (hc : child h x l = some y) (hl : l < 256) (D : Deep h x k (n + 1)) :
    Deep h y (k - 1) n := by
  intro u z u1 u2 u3 u4
  refine D (l :: u) z (by simp; omega) (by simpa using u2) ?_ (by simp only [walk, hc, Option.bind_some]; exact u4)
  intro b hb
  rcases List.mem_cons.mp hb with rfl | hb
  · exact hl
  · exact u3 b hb

theorem nextDown_spec (I : Inv h F) : ∀ n x, Used h F x → Deep h x 0 n →
    ∃ t j, nextDown h n x = some j ∧ walk h x t = some j ∧ Least h x n t := by
  intro n
  induction n with
  | zero =>
    intro x u D
    refine ⟨[], x, rfl, rfl, ⟨rfl, by simp, rfl⟩, ?_⟩
    intro t ht
    exact Or.inl (List.length_eq_zero_iff.mp ht.1).symm
  | succ n ih =>
    intro x u D
    obtain ⟨l0, h0, hc0⟩ := D [] x (by simp) (by simp) (by simp) rfl
    obtain ⟨j0, hc0⟩ := Option.isSome_iff_exists.mp hc0
    obtain ⟨b, e1, b1, _⟩ := child_eq_some.mp hc0
    have hx := u.lt I.fl
    have hf := itBegin_core I u
    rw [if_pos (by omega)] at hf
    have hr : itFind h (h.base x).toNat ((h.base x).toNat + nullValue) x ≠ 0 := by
      intro q
      rcases hf with ⟨_, a⟩ | ⟨_, _, _, _, a, _⟩
      · rw [a l0 (by omega) h0] at hc0; simp at hc0
      · exact a q
    obtain ⟨l, _, l2, hc, ur, hmin⟩ := hf.used I u hr
    obtain ⟨t, j, e, ht, hleast⟩ := ih _ ur (D.child hc l2)
    refine ⟨l :: t, j, ?_, by simp only [walk, hc, Option.bind_some]; exact ht, hleast.cons hc l2 ?_⟩
    · rw [nextDown, rdB, if_pos hx.2]
      simp only [Option.bind_some]
      rw [if_pos (by omega), if_pos hr]
      exact e
    · intro l' q; exact hmin l' (by omega) q

theorem beginLoop_zero (n : Nat) : beginLoop h n 0 = some 0 := by
  cases n <;> simp [beginLoop]

theorem beginLoop_down (I : Inv h F) : ∀ n x, Used h F x → Deep h x 0 n → beginLoop h n x = nextDown h n x := by
  intro n
  induction n with
  | zero => intro x u D; rfl
  | succ n ih =>
    intro x u D
    obtain ⟨l0, h0, hc0⟩ := D [] x (by simp) (by simp) (by simp) rfl
    obtain ⟨j0, hc0⟩ := Option.isSome_iff_exists.mp hc0
    obtain ⟨b, e1, b1, _⟩ := child_eq_some.mp hc0
    have hx := u.lt I.fl
    have hf := itBegin_core I u
    rw [if_pos (by omega)] at hf
    have hr : itFind h (h.base x).toNat ((h.base x).toNat + nullValue) x ≠ 0 := by
      intro q
      rcases hf with ⟨_, a⟩ | ⟨_, _, _, _, a, _⟩
      · rw [a l0 (by omega) h0] at hc0; simp at hc0
      · exact a q
    obtain ⟨l, _, l2, hc, ur, hmin⟩ := hf.used I u hr
    have hx1 : x ≠ 0 := by omega
    rw [beginLoop, nextDown, if_pos hx1, rdB, if_pos hx.2]
    simp only [Option.bind_some]
    rw [if_pos (by omega), if_pos (by omega), if_pos hr]
    exact ih _ ur (D.child hc l2)

/-- `begin()`: the least leg, or 0 if there is none. -/
theorem wideBegin_spec (I : Inv h F) {w x} (hw : 0 < w) (u : Used h F x) (D : Deep h x 1 w) :
    ∃ j, wideBegin w h x = some j ∧
      ((j = 0 ∧ ∀ t, ¬ Leg h x w t) ∨ (j ≠ 0 ∧ ∃ t, walk h x t = some j ∧ Least h x w t)) := by
  have hx := u.lt I.fl
  obtain ⟨n, rfl⟩ : ∃ n, w = n + 1 := ⟨w - 1, by omega⟩
  have key : ∀ r, FirstFrom h x 0 r → ∃ j, beginLoop h n r = some j ∧
      ((j = 0 ∧ ∀ t, ¬ Leg h x (n + 1) t) ∨ (j ≠ 0 ∧ ∃ t, walk h x t = some j ∧ Least h x (n + 1) t)) := by
    intro r f
    by_cases hr : r = 0
    · subst hr
      refine ⟨0, beginLoop_zero n, Or.inl ⟨rfl, ?_⟩⟩
      intro t ht
      obtain ⟨l, t', y, rfl, a, b, c⟩ := ht.uncons
      rcases f with ⟨_, q⟩ | ⟨_, _, _, _, q, _⟩
      · rw [q l (by omega) a] at b; simp at b
      · exact q rfl
    · obtain ⟨l, _, l2, hc, ur, hmin⟩ := f.used I u hr
      have D' := D.child hc l2
      rw [beginLoop_down I n r ur D']
      obtain ⟨t, j, e, ht, hleast⟩ := nextDown_spec I n r ur D'
      refine ⟨j, e, Or.inr ⟨?_, l :: t, by simp only [walk, hc, Option.bind_some]; exact ht, hleast.cons hc l2 ?_⟩⟩
      · have := ((I.walk_used t r j ur ht).lt I.fl).1; omega
      · intro l' q; exact hmin l' (by omega) q
  by_cases h1 : n = 0
  · subst h1
    obtain ⟨r, e, f⟩ := itBegin_spec I u
    obtain ⟨j, e', q⟩ := key r f
    refine ⟨j, ?_, q⟩
    rw [wideBegin, if_pos rfl, e]; exact e'
  · obtain ⟨j, e', q⟩ := key _ (itBegin_core I u)
    refine ⟨j, ?_, q⟩
    rw [wideBegin, if_neg (by omega), beginLoop, if_pos (by omega), rdB, if_pos hx.2]
    exact e'

/-- The climb of `operator++`. -/
theorem nextUp_spec (I : Inv h F) {x} (u : Used h F x) : ∀ n s i lv, s.length = n → (∀ b ∈ s, b < 256) →
    walk h x s = some i → ∃ r lv', nextUp h n lv i = some (r, lv') ∧
      ((r = 0 ∧ ∀ a b c, s = a ++ b :: c → ∀ y, walk h x a = some y → ∀ l, b < l → l < 256 → child h y l = none) ∨
       (r ≠ 0 ∧ ∃ a b c l y, s = a ++ b :: c ∧ lv' = lv + c.length ∧ walk h x a = some y ∧ b < l ∧ l < 256 ∧
          child h y l = some r ∧ (∀ l', b < l' → l' < l → child h y l' = none) ∧
          ∀ a' b' c', s = a' ++ b' :: c' → a.length < a'.length → ∀ y', walk h x a' = some y' →
            ∀ l', b' < l' → l' < 256 → child h y' l' = none)) := by
  intro n
  induction n with
  | zero =>
    intro s i lv hs hb hw
    have : s = [] := List.length_eq_zero_iff.mp hs
    subst this
    exact ⟨0, lv, rfl, Or.inl ⟨rfl, by intro a b c e; simp at e⟩⟩
  | succ n ih =>
    intro s i lv hs hb hw
    rcases List.eq_nil_or_concat s with rfl | ⟨t, l, rfl⟩
    · simp at hs
    · rw [List.concat_eq_append] at hs hb hw ⊢
      rw [walk_snoc] at hw
      cases ht : walk h x t with
      | none => rw [ht] at hw; simp at hw
      | some y =>
        rw [ht] at hw
        simp only [Option.bind_some] at hw
        have uy := I.walk_used t x y u ht
        obtain ⟨b, e1, b1, rfl, _, c1, c2, p1, p2, _, _⟩ := child_facts I uy hw
        have hl : l < 256 := hb l (by simp)
        have hf := itFind_spec e1 b1 (l + 1) (by omega) (by omega)
        have hstep : nextUp h (n + 1) lv (b + l) =
            (let r := itFind h (b + (l + 1)) (b + nullValue) y
             if r ≠ 0 then some (r, lv) else nextUp h n (lv + 1) y) := by
          rw [nextUp, rdC, if_pos c1]
          simp only [Option.bind_some, c2]
          rw [if_pos (by omega), Int.toNat_natCast, rdB, if_pos p2]
          simp only [Option.bind_some, e1]
          rw [if_pos (by omega), Int.toNat_natCast]
          rfl
        rw [hstep]
        dsimp only
        generalize itFind h (b + (l + 1)) (b + nullValue) y = r at hf
        by_cases hr : r = 0
        · rw [if_neg (by simpa using hr)]
          have hnone : ∀ l', l < l' → l' < 256 → child h y l' = none := by
            rcases hf with ⟨_, q⟩ | ⟨_, _, _, _, q, _⟩
            · intro l' q1 q2; exact q l' (by omega) q2
            · exact absurd hr q
          obtain ⟨r', lv', e, q⟩ := ih t y (lv + 1) (by simpa using hs) (fun z hz => hb z (by simp [hz])) ht
          refine ⟨r', lv', e, ?_⟩
          -- a split of `t ++ [l]` is the last label or a split of `t`
          have split : ∀ a b' c, t ++ [l] = a ++ b' :: c → (a = t ∧ b' = l ∧ c = []) ∨ ∃ c', c = c' ++ [l] ∧ t = a ++ b' :: c' := by
            intro a b' c e
            rcases List.eq_nil_or_concat c with rfl | ⟨c', z, rfl⟩
            · left
              have := List.append_inj' e (by simp)
              simp at this
              exact ⟨this.1.symm, this.2.symm, rfl⟩
            · right
              rw [List.concat_eq_append, ← List.cons_append, ← List.append_assoc] at e
              have := List.append_inj' e (by simp)
              simp at this
              exact ⟨c', by simp [this.2], this.1⟩
          rcases q with ⟨q0, q1⟩ | ⟨q0, a, b', c, l2, y2, s1, s2, s3, s4, s5, s6, s7, s8⟩
          · refine Or.inl ⟨q0, ?_⟩
            intro a b' c e' z hz l2 l21 l22
            rcases split a b' c e' with ⟨rfl, rfl, rfl⟩ | ⟨c', rfl, e''⟩
            · rw [ht] at hz
              obtain rfl : y = z := by simpa using hz
              exact hnone l2 l21 l22
            · exact q1 a b' c' e'' z hz l2 l21 l22
          · refine Or.inr ⟨q0, a, b', c ++ [l], l2, y2, by simp [s1], by simp; omega, s3, s4, s5, s6, s7, ?_⟩
            intro a' b2 c2' e' hlen y' hy' l' l1' l2'
            rcases split a' b2 c2' e' with ⟨rfl, rfl, rfl⟩ | ⟨c', rfl, e''⟩
            · rw [ht] at hy'
              obtain rfl : y = y' := by simpa using hy'
              exact hnone l' l1' l2'
            · exact s8 a' b2 c' e'' hlen y' hy' l' l1' l2'
        · rw [if_pos hr]
          obtain ⟨l2, l21, l22, hc2, _, hmin⟩ := hf.used I uy hr
          refine ⟨r, lv, rfl, Or.inr ⟨hr, t, l, [], l2, y, rfl, by simp, ht, by omega, l22, hc2, ?_, ?_⟩⟩
          · intro l' q1 q2; exact hmin l' (by omega) q2
          · intro a' b' c' e' hlen
            exfalso
            have := congrArg List.length e'
            simp at this; omega

/-- `operator++`: the next leg, or 0 after the last one. -/
theorem wideNext_spec (I : Inv h F) {w x s i} (hw : 0 < w) (u : Used h F x) (D : Deep h x 1 w)
    (hs : s.length = w) (hb : ∀ b ∈ s, b < 256) (hi : walk h x s = some i) :
    ∃ j, wideNext w h i = some j ∧
      ((j = 0 ∧ ∀ t, Leg h x w t → ¬ lexLt s t) ∨
       (j ≠ 0 ∧ ∃ t, walk h x t = some j ∧ Leg h x w t ∧ lexLt s t ∧ ∀ t', Leg h x w t' → lexLt s t' → t = t' ∨ lexLt t t')) := by
  obtain ⟨r, lv, e, q⟩ := nextUp_spec I u w s i 0 hs hb hi
  -- the byte iterator does the same
  have heq : wideNext w h i = (nextUp h w 0 i).bind fun r => if r.1 ≠ 0 then nextDown h r.2 r.1 else some 0 := by
    by_cases h1 : w = 1
    · subst h1
      rw [wideNext, if_pos rfl]
      obtain ⟨l, rfl⟩ := List.length_eq_one_iff.mp hs
      have hc : child h x l = some i := by
        simp only [walk] at hi
        cases hc : child h x l with
        | none => rw [hc] at hi; simp at hi
        | some z => rw [hc] at hi; simpa using hi
      obtain ⟨b, e1, b1, rfl, _, c1, c2, p1, p2, hm, hbb⟩ := child_facts I u hc
      rw [itNext, hbb, hm]
      simp only [Option.bind_some, Option.map_some]
      have hstep : nextUp h 1 0 (b + l) =
          (let r := itFind h (b + l + 1) (b + nullValue) x
           if r ≠ 0 then some (r, 0) else some (0, 1)) := by
        rw [nextUp, rdC, if_pos c1]
        simp only [Option.bind_some, c2]
        rw [if_pos (by omega), Int.toNat_natCast, rdB, if_pos p2]
        simp only [Option.bind_some, e1]
        rw [if_pos (by omega), Int.toNat_natCast]
        rfl
      rw [hstep]
      dsimp only
      by_cases hz : itFind h (b + l + 1) (b + nullValue) x = 0
      · rw [if_neg (by simpa using hz), hz]; simp
      · rw [if_pos hz]; simp [hz, nextDown]
    · rw [wideNext, if_neg h1]
  rw [heq, e]
  simp only [Option.bind_some]
  rcases q with ⟨q0, q1⟩ | ⟨q0, a, b, c, l, y, s1, s2, s3, s4, s5, s6, s7, s8⟩
  · rw [if_neg (by simpa using q0)]
    refine ⟨0, rfl, Or.inl ⟨rfl, ?_⟩⟩
    intro t ht hlt
    obtain ⟨a, b, c, b', c', e1, e2, hbb⟩ := (lexLt_split (by rw [hs, ht.1])).mp hlt
    have hbt := ht.2.2
    rw [e2, walk_append] at hbt
    cases hy : walk h x a with
    | none => rw [hy] at hbt; simp at hbt
    | some y =>
      rw [hy] at hbt
      simp only [Option.bind_some, walk] at hbt
      rw [q1 a b c e1 y hy b' hbb (ht.2.1 b' (by rw [e2]; simp))] at hbt
      simp at hbt
  · rw [if_pos q0]
    have uy := I.walk_used a x y u s3
    have ur := (I.child_used uy s6).1
    have hlen : a.length + 1 + c.length = w := by rw [← hs, s1]; simp; omega
    have hba : ∀ z ∈ a, z < 256 := fun z hz => hb z (by rw [s1]; simp [hz])
    have hwr : walk h x (a ++ [l]) = some r := by rw [walk_snoc, s3]; exact s6
    have Dr : Deep h r 0 c.length := by
      intro v z v1 v2 v3 v4
      refine D (a ++ [l] ++ v) z (by simp; omega) (by simp; omega) ?_ ?_
      · intro b' hb'
        simp only [List.mem_append, List.mem_singleton] at hb'
        rcases hb' with (q | q) | q
        · exact hba b' q
        · omega
        · exact v3 b' q
      · rw [walk_append, hwr]; exact v4
    obtain ⟨t, j, ej, ht, hl1, hl2⟩ := nextDown_spec I c.length r ur Dr
    have hlv : lv = c.length := by omega
    rw [hlv]
    have hwt : walk h x (a ++ l :: t) = some j := by
      rw [show a ++ l :: t = a ++ [l] ++ t by simp, walk_append, hwr]; exact ht
    refine ⟨j, ej, Or.inr ⟨?_, a ++ l :: t, hwt, ⟨?_, ?_, by rw [hwt]; rfl⟩, ?_, ?_⟩⟩
    · have := ((I.walk_used t r j ur ht).lt I.fl).1; omega
    · simp [hl1.1]; omega
    · intro z hz
      simp only [List.mem_append, List.mem_cons] at hz
      rcases hz with q | rfl | q
      · exact hba z q
      · exact s5
      · exact hl1.2.1 z q
    · rw [s1, lexLt_append]; exact Or.inl s4
    · intro t' ht' hlt
      obtain ⟨a', b1, c1, b1', c1', e1, e2, hbb⟩ := (lexLt_split (by rw [hs, ht'.1])).mp hlt
      -- where `s` and `t'` part
      have hbt := ht'.2.2
      have hb1' : b1' < 256 := ht'.2.1 b1' (by rw [e2]; simp)
      rw [e2, walk_append] at hbt
      cases hy : walk h x a' with
      | none => rw [hy] at hbt; simp at hbt
      | some y' =>
        rw [hy] at hbt
        simp only [Option.bind_some, walk] at hbt
        cases hc1 : child h y' b1' with
        | none => rw [hc1] at hbt; simp at hbt
        | some r' =>
          rw [hc1] at hbt
          simp only [Option.bind_some] at hbt
          have hle : a'.length ≤ a.length := by
            apply Classical.byContradiction
            intro q
            rw [s8 a' b1 c1 e1 (by omega) y' hy b1' hbb hb1'] at hc1
            simp at hc1
          rcases Nat.lt_or_ge a'.length a.length with q | q
          · right
            -- `a = a' ++ b1 :: _`
            have : ∃ d, a = a' ++ b1 :: d := by
              have ha' : a' ++ [b1] <+: s := ⟨c1, by rw [e1]; simp⟩
              have ha : a <+: s := ⟨b :: c, s1.symm⟩
              obtain ⟨d, hd⟩ := List.prefix_of_prefix_length_le ha' ha (by simp; omega)
              exact ⟨d, by rw [← hd]; simp⟩
            obtain ⟨d, rfl⟩ := this
            rw [e2, List.append_assoc, lexLt_append]
            exact Or.inl hbb
          · have hlen2 : a'.length = a.length := by omega
            have e3 := s1.symm.trans e1
            obtain ⟨ea, eb⟩ := List.append_inj e3 hlen2.symm
            simp only [List.cons.injEq] at eb
            subst ea
            obtain ⟨rfl, rfl⟩ := eb
            rw [s3] at hy
            obtain rfl : y = y' := by simpa using hy
            have hge : l ≤ b1' := by
              apply Classical.byContradiction
              intro q2
              rw [s7 b1' hbb (by omega)] at hc1; simp at hc1
            rw [e2]
            rcases Nat.lt_or_ge l b1' with q2 | q2
            · right; rw [lexLt_append]; exact Or.inl q2
            · have : l = b1' := by omega
              subst this
              rw [s6] at hc1
              obtain rfl : r = r' := by simpa using hc1
              have hleg : Leg h r c.length c1' := by
                refine ⟨?_, fun z hz => ht'.2.1 z (by rw [e2]; simp [hz]), hbt⟩
                have := ht'.1
                rw [e2] at this
                simp at this; omega
              rcases hl2 c1' hleg with z | z
              · left; rw [z]
              · right; rw [lexLt_append]; exact Or.inr ⟨rfl, z⟩

theorem walk_inj_from (I : Inv h F) {x s t j} (u : Used h F x) (e1 : walk h x s = some j)
    (e2 : walk h x t = some j) : s = t := by
  obtain ⟨q, hq⟩ := I.reach x u
  have h1 : walk h 1 (q ++ s) = some j := by rw [walk_append, hq]; exact e1
  have h2 : walk h 1 (q ++ t) = some j := by rw [walk_append, hq]; exact e2
  exact List.append_cancel_left (I.walk_inj h1 h2)

/-- The loop visits the legs from `s` on; `vis` are those already visited. -/
theorem childLoop_spec (I : Inv h F) {w x} (hw : 0 < w) (u : Used h F x) (D : Deep h x 1 w) :
    ∀ (n : Nat) (vis : List (List Nat)) (i : Nat), vis.length + n = h.len + 1 →
      (∀ t ∈ vis, Leg h x w t) → vis.Pairwise lexLt →
      ((i = 0 ∧ ∀ t, Leg h x w t → t ∈ vis) ∨
       (i ≠ 0 ∧ ∃ s, walk h x s = some i ∧ Leg h x w s ∧ (∀ t ∈ vis, lexLt t s) ∧
          ∀ t, Leg h x w t → t ∈ vis ∨ t = s ∨ lexLt s t)) →
      ∃ (L : List Nat) (ts : List (List Nat)), childLoop w h n i = some L ∧
        ts.map (walk h x) = L.map some ∧ (vis ++ ts).Pairwise lexLt ∧ (∀ t, t ∈ vis ++ ts ↔ Leg h x w t) := by
  intro n
  induction n with
  | zero =>
    intro vis i hlen hv hp _
    exfalso
    -- more distinct nodes than slots
    let f : List Nat → Nat := fun t => (walk h x t).getD 0
    have nd : (vis.map f).Nodup := by
      refine List.Nodup.map_on ?_ (hp.imp (fun {a b} hab => by rintro rfl; exact lexLt_irrefl _ hab))
      intro a ha b hb e
      obtain ⟨y, hy⟩ := Option.isSome_iff_exists.mp (hv a ha).2.2
      obtain ⟨z, hz⟩ := Option.isSome_iff_exists.mp (hv b hb).2.2
      simp only [f, hy, hz, Option.getD_some] at e
      subst e
      exact walk_inj_from I u hy hz
    have sub : vis.map f ⊆ List.range h.len := by
      intro j hj
      obtain ⟨t, ht, rfl⟩ := List.mem_map.mp hj
      obtain ⟨y, hy⟩ := Option.isSome_iff_exists.mp (hv t ht).2.2
      simp only [f, hy, Option.getD_some, List.mem_range]
      exact ((I.walk_used t x y u hy).lt I.fl).2
    have := (List.subperm_of_subset nd sub).length_le
    simp at this
    omega
  | succ n ih =>
    intro vis i hlen hv hp hi
    rcases hi with ⟨rfl, hall⟩ | ⟨h0, s, hs, hleg, hlt, hall⟩
    · refine ⟨[], [], by simp [childLoop], rfl, by simpa using hp, ?_⟩
      intro t
      simp only [List.append_nil]
      exact ⟨hv t, hall t⟩
    · obtain ⟨j, ej, hj⟩ := wideNext_spec I hw u D hleg.1 hleg.2.1 hs
      have hv' : ∀ t ∈ vis ++ [s], Leg h x w t := by
        intro t ht
        rcases List.mem_append.mp ht with q | q
        · exact hv t q
        · rw [List.mem_singleton.mp q]; exact hleg
      have hp' : (vis ++ [s]).Pairwise lexLt := by
        rw [List.pairwise_append]
        refine ⟨hp, by simp, ?_⟩
        intro a ha b hb
        rw [List.mem_singleton.mp hb]; exact hlt a ha
      have := ih (vis ++ [s]) j (by simp; omega) hv' hp' (by
        rcases hj with ⟨rfl, q⟩ | ⟨j0, t, ht, tl, tlt, tmin⟩
        · refine Or.inl ⟨rfl, ?_⟩
          intro t ht
          rcases hall t ht with z | z | z
          · simp [z]
          · simp [z]
          · exact absurd z (q t ht)
        · refine Or.inr ⟨j0, t, ht, tl, ?_, ?_⟩
          · intro a ha
            rcases List.mem_append.mp ha with q | q
            · exact lexLt_trans (hlt a q) tlt
            · rw [List.mem_singleton.mp q]; exact tlt
          · intro t' ht'
            rcases hall t' ht' with z | z | z
            · simp [z]
            · simp [z]
            · rcases tmin t' ht' z with y | y
              · exact Or.inr (Or.inl y.symm)
              · exact Or.inr (Or.inr y))
      obtain ⟨L, ts, e, hm, hp2, hmem⟩ := this
      refine ⟨i :: L, s :: ts, ?_, by simp [hs, hm], by simpa using hp2, ?_⟩
      · rw [childLoop, if_neg h0, ej]
        simp [e]
      · intro t; rw [← hmem t]; simp

/-- Iterating over the children of `x` visits its legs in increasing order. -/
theorem children_spec (I : Inv h F) {w x} (hw : 0 < w) (u : Used h F x) (D : Deep h x 1 w) :
    ∃ (L : List Nat) (ts : List (List Nat)), children w h x = some L ∧ ts.map (walk h x) = L.map some ∧
      ts.Pairwise lexLt ∧ ∀ t, t ∈ ts ↔ Leg h x w t := by
  obtain ⟨j, ej, hj⟩ := wideBegin_spec I hw u D
  have := childLoop_spec I hw u D (h.len + 1) [] j (by simp) (by simp) List.Pairwise.nil (by
    rcases hj with ⟨rfl, q⟩ | ⟨j0, t, ht, tl, tmin⟩
    · exact Or.inl ⟨rfl, fun t ht => absurd ht (q t)⟩
    · refine Or.inr ⟨j0, t, ht, tl, by simp, ?_⟩
      intro t' ht'
      rcases tmin t' ht' with z | z
      · exact Or.inr (Or.inl z.symm)
      · exact Or.inr (Or.inr z))
  obtain ⟨L, ts, e, a, b, c⟩ := this
  exact ⟨L, ts, by rw [children, ej]; exact e, a, by simpa using b, by simpa using c⟩

/-- The label of the last `|s|` bytes of a path. -/
theorem wideValueLoop_spec (I : Inv h F) {x} (u : Used h F x) : ∀ (n : Nat) (s : List Nat) (i k acc : Nat),
    s.length = n → (∀ b ∈ s, b < 256) → walk h x s = some i →
    wideValueLoop h n k i acc = some (acc + beValue s * 256 ^ k) := by
  intro n
  induction n with
  | zero =>
    intro s i k acc hs _ _
    rw [List.length_eq_zero_iff.mp hs]
    simp [wideValueLoop, beValue]
  | succ n ih =>
    intro s i k acc hs hb hw
    rcases List.eq_nil_or_concat s with rfl | ⟨t, l, rfl⟩
    · simp at hs
    · rw [List.concat_eq_append] at hs hb hw ⊢
      rw [walk_snoc] at hw
      cases ht : walk h x t with
      | none => rw [ht] at hw; simp at hw
      | some y =>
        rw [ht] at hw
        simp only [Option.bind_some] at hw
        have uy := I.walk_used t x y u ht
        have hbl := I.bl y uy
        obtain ⟨b, e1, b1, rfl, _, c1, c2, p1, p2, _, _⟩ := child_facts I uy hw
        rw [wideValueLoop, rdC, if_pos c1]
        simp only [Option.bind_some, c2]
        rw [if_pos (by omega), Int.toNat_natCast, rdB, if_pos p2]
        simp only [Option.bind_some, e1]
        rw [if_pos (by omega), Int.toNat_natCast, ih t y (k + 1) _ (by simpa using hs) (fun z hz => hb z (by simp [hz])) ht]
        have hbe : ∀ t : List Nat, beValue (t ++ [l]) = beValue t * 256 + l := by
          intro t
          induction t with
          | nil => simp [beValue]
          | cons a t ih =>
            simp only [List.cons_append, beValue, ih, List.length_append, List.length_singleton, Nat.pow_succ]
            rw [Nat.add_mul, Nat.mul_assoc]; omega
        rw [hbe, show b + l - b = l by omega, Nat.shiftLeft_eq, Nat.mul_comm k 8, Nat.pow_mul]
        congr 1
        have : beValue t * 256 ^ (k + 1) = beValue t * 256 * 256 ^ k := by
          rw [Nat.pow_succ, Nat.mul_comm (256 ^ k), Nat.mul_assoc]
        rw [this, Nat.add_mul]
        show acc + l * 256 ^ k + _ = acc + (beValue t * 256 * 256 ^ k + l * 256 ^ k)
        omega

theorem wideValue_spec (I : Inv h F) {w x s i} (hw : 0 < w) (u : Used h F x) (hs : s.length = w)
    (hb : ∀ b ∈ s, b < 256) (hi : walk h x s = some i) : wideValue w h i = some (beValue s) := by
  rcases List.eq_nil_or_concat s with rfl | ⟨t, l, rfl⟩
  · simp at hs; omega
  · rw [List.concat_eq_append] at hs hb hi ⊢
    have hi' := hi
    rw [walk_snoc] at hi
    cases ht : walk h x t with
    | none => rw [ht] at hi; simp at hi
    | some y =>
      rw [ht] at hi
      simp only [Option.bind_some] at hi
      have uy := I.walk_used t x y u ht
      obtain ⟨ui, i2, _⟩ := I.child_used uy hi
      rw [wideValue, if_pos ⟨by omega, (ui.lt I.fl).2⟩]
      by_cases h1 : w = 1
      · rw [if_pos h1, itValue_spec I uy hi (hb l (by simp))]
        have : t = [] := by
          apply List.length_eq_zero_iff.mp
          simp at hs; omega
        subst this
        simp [beValue]
      · rw [if_neg h1]
        have := wideValueLoop_spec I u w (t ++ [l]) i 0 0 hs hb hi'
        simpa using this

theorem wideParent_spec (I : Inv h F) {w p s q i} (hw : 0 < w) (hp : walk h 1 p = some q) (hs : s.length = w)
    (hi : walk h 1 (p ++ s) = some i) : wideParent w h i = some q := by
  have hc := climb_spec I hp w s i hs hi
  have hq := (I.root_used hp).lt I.fl
  unfold wideParent
  by_cases h1 : w = 1
  · rw [if_pos h1, itParent, ← h1]; exact hc
  · rw [if_neg h1, hc]
    simp only [Option.bind_some]
    rw [if_pos hq]

theorem beValue_ser {w l : Nat} (hl : l < 256 ^ w) : beValue (serialize w l) = l := by
  rw [beValue_serialize, Nat.mod_eq_of_lt hl]

theorem stringLoop_spec (I : Inv h F) {w} (hw : 0 < w) : ∀ (n : Nat) (p : List Nat) (i : Nat), p.length < n →
    Wd w p → walk h 1 (bytesOf w p) = some i → stringLoop w h n i = some p.reverse := by
  intro n
  induction n with
  | zero => intro p i hp; omega
  | succ n ih =>
    intro p i hp hwd hi
    rcases List.eq_nil_or_concat p with rfl | ⟨t, l, rfl⟩
    · simp only [bytesOf, List.flatMap_nil, walk, Option.some.injEq] at hi
      subst hi
      simp [stringLoop]
    · rw [List.concat_eq_append] at hp hwd hi ⊢
      have hbl : bytesOf w [l] = serialize w l := by simp [bytesOf]
      rw [bytesOf_append, hbl] at hi
      have hi' := hi
      rw [walk_append] at hi
      cases ht : walk h 1 (bytesOf w t) with
      | none => rw [ht] at hi; simp at hi
      | some q =>
        rw [ht] at hi
        simp only [Option.bind_some] at hi
        have i1 : 1 < i := by
          have h1 := ((I.root_used hi').lt I.fl).1
          have : i ≠ 1 := by
            rintro rfl
            have := congrArg List.length (I.walk_inj hi' (rfl : walk h 1 [] = some 1))
            simp [serialize_length] at this; omega
          omega
        rw [stringLoop, if_pos i1,
          wideValue_spec I hw (I.root_used ht) (serialize_length w l) (serialize_bytes w l) hi,
          beValue_ser (hwd l (by simp))]
        simp only [Option.bind_some]
        rw [wideParent_spec I hw ht (serialize_length w l) hi']
        simp only [Option.bind_some]
        rw [ih t q (by simp at hp; omega) (fun z hz => hwd z (by simp [hz])) ht]
        simp

theorem bytes_ser {w : Nat} {t : List Nat} (hl : t.length = w) (hb : ∀ b ∈ t, b < 256) :
    t = serialize w (beValue t) ∧ beValue t < 256 ^ w := by
  have hv : beValue t < 256 ^ w := by rw [← hl]; exact beValue_lt t hb
  refine ⟨?_, hv⟩
  refine beValue_inj _ _ hb (serialize_bytes w _) (by rw [serialize_length, hl]) ?_
  rw [beValue_ser hv]

/-- Iteration over the children of the node of a label string `p`. -/
theorem wide_children (I : Inv h F) {w p i} (hw : 0 < w) (hi : walk h 1 (bytesOf w p) = some i)
    (D : Deep h i 1 w) : ∃ L ls : List Nat, children w h i = some L ∧ L.mapM (wideValue w h) = some ls ∧
      ls.Pairwise (· < ·) ∧ L.length = ls.length ∧
      (∀ l, l ∈ ls ↔ l < 256 ^ w ∧ (walk h 1 (bytesOf w (p ++ [l]))).isSome = true) ∧
      (∀ n l c : Nat, ls[n]? = some l → L[n]? = some c → walk h 1 (bytesOf w (p ++ [l])) = some c) ∧
      (∀ c ∈ L, wideParent w h c = some i) := by
  have u := I.root_used hi
  obtain ⟨L, ts, e, hm, hp, hmem⟩ := children_spec I hw u D
  have hwalk : ∀ t, walk h 1 (bytesOf w p ++ t) = walk h i t := by intro t; rw [walk_append, hi]; rfl
  have hser : ∀ l, bytesOf w (p ++ [l]) = bytesOf w p ++ serialize w l := by
    intro l; rw [bytesOf_append]; simp [bytesOf]
  have hval : ∀ (ts : List (List Nat)) (L : List Nat), ts.map (walk h i) = L.map some → (∀ t ∈ ts, Leg h i w t) →
      L.mapM (wideValue w h) = some (ts.map beValue) ∧ ∀ c ∈ L, wideParent w h c = some i := by
    intro ts
    induction ts with
    | nil => intro L hL _; cases L with
      | nil => exact ⟨rfl, by simp⟩
      | cons _ _ => simp at hL
    | cons t ts ih =>
      intro L hL hleg
      cases L with
      | nil => simp at hL
      | cons c L =>
        simp only [List.map_cons, List.cons.injEq] at hL
        have ht := hleg t (by simp)
        obtain ⟨a, b⟩ := ih L hL.2 (fun t' ht' => hleg t' (by simp [ht']))
        constructor
        · rw [List.mapM_cons, wideValue_spec I hw u ht.1 ht.2.1 hL.1, a]; rfl
        · intro c' hc'
          rcases List.mem_cons.mp hc' with rfl | q
          · exact wideParent_spec I hw hi ht.1 (by rw [hwalk]; exact hL.1)
          · exact b c' q
  obtain ⟨hv1, hv2⟩ := hval ts L hm (fun t ht => (hmem t).mp ht)
  refine ⟨L, ts.map beValue, e, hv1, ?_, ?_, ?_, ?_, hv2⟩
  · rw [List.pairwise_map]
    refine List.Pairwise.imp_of_mem ?_ hp
    intro a b ha hb hab
    have la := (hmem a).mp ha
    have lb := (hmem b).mp hb
    exact (lexLt_iff a b la.2.1 lb.2.1 (by rw [la.1, lb.1])).mp hab
  · have := congrArg List.length hm
    simpa using this.symm
  · intro l
    rw [List.mem_map, hser, hwalk]
    constructor
    · rintro ⟨t, ht, rfl⟩
      have lt := (hmem t).mp ht
      obtain ⟨a, b⟩ := bytes_ser lt.1 lt.2.1
      exact ⟨b, by rw [← a]; exact lt.2.2⟩
    · rintro ⟨a, b⟩
      exact ⟨serialize w l, (hmem _).mpr ⟨serialize_length w l, serialize_bytes w l, b⟩, beValue_ser a⟩
  · intro n l c hl hc
    rw [List.getElem?_map] at hl
    obtain ⟨t, ht, rfl⟩ := Option.map_eq_some_iff.mp hl
    have lt := (hmem t).mp (List.mem_of_getElem? ht)
    rw [hser, hwalk, ← (bytes_ser lt.1 lt.2.1).1]
    have := congrArg (fun z => z[n]?) hm
    simp only [List.getElem?_map, ht, hc, Option.map_some, Option.some.injEq] at this
    exact this

theorem itBool_eq {i : Nat} (h2 : 2 ≤ i) (hl : i < h.len) : itBool h i = isTail h i := by
  rw [itBool, if_neg (by omega), rdB, if_pos hl, isTail, if_pos ⟨by omega, hl⟩]
  simp only [Option.map_some]
  congr 1
  have hnv : nullValue = 256 := rfl
  by_cases hb : h.base i ≤ 0
  · rw [if_pos hb]
    symm
    rw [decide_eq_true_iff]
    exact Or.inl ⟨hb, by omega⟩
  · rw [if_neg hb]
    rw [decide_eq_decide]
    constructor
    · intro q; exact Or.inr ⟨by omega, q⟩
    · rintro (⟨q, _⟩ | q)
      · exact absurd q hb
      · exact q.2

/-- Nodes inside a label can always be continued. -/
theorem Rep.deep {m : KMap} {w p i} (hw : 0 < w) (R : Rep h F (enc w m))
    (hi : walk h 1 (bytesOf w p) = some i) : Deep h i 1 w := by
  intro u y u1 u2 u3 u4
  have hwy : walk h 1 (bytesOf w p ++ u) = some y := by rw [walk_append, hi]; exact u4
  have hb : ∀ b ∈ bytesOf w p ++ u, b < 256 := by
    intro b hb
    rcases List.mem_append.mp hb with q | q
    · exact bytesOf_byte w p b q
    · exact u3 b q
  have hne : bytesOf w p ++ u ≠ [] := by
    intro q
    have := congrArg List.length q
    simp at this
    have := this.2
    subst this
    simp at u1
  have hT : tr h (bytesOf w p ++ u) ≠ none := by rw [tr_of_walk hwy]; simp
  have hnk : ∀ v, (bytesOf w p ++ u, v) ∉ enc w m := by
    intro v hv
    obtain ⟨e, _, he⟩ := List.mem_map.mp hv
    have := congrArg (List.length ∘ Prod.fst) he
    simp only [Function.comp, bytesOf_length, List.length_append] at this
    have h1 : (e.1.length * w) % w = 0 := Nat.mul_mod_left _ _
    rw [this, Nat.mul_comm, Nat.mul_add_mod, Nat.mod_eq_of_lt u2] at h1
    omega
  rcases (R.C.mem_of_node hb hne).mp hT with ⟨k, v, a, ⟨t, rfl⟩, b⟩ | ⟨v, hv⟩
  · cases t with
    | nil => simp at b
    | cons l t =>
      refine ⟨l, R.W.byte _ v a l (by simp), ?_⟩
      rw [child_isSome_tr hwy]
      have := R.C.of_key a
      intro q
      apply this
      rw [show bytesOf w p ++ u ++ l :: t = bytesOf w p ++ u ++ [l] ++ t by simp]
      exact tr_none_append q
  · exact absurd hv (hnk v)

theorem SRep.deep {m : KMap} {w p i} (hw : 0 < w) (R : SRep h F (enc w m))
    (hi : walk h 1 (bytesOf w p) = some i) : Deep h i 1 w := by
  intro u y u1 u2 u3 u4
  have hwy : walk h 1 (bytesOf w p ++ u) = some y := by rw [walk_append, hi]; exact u4
  have hb : ∀ b ∈ bytesOf w p ++ u, b < 256 := by
    intro b hb
    rcases List.mem_append.mp hb with q | q
    · exact bytesOf_byte w p b q
    · exact u3 b q
  have hne : bytesOf w p ++ u ≠ [] := by
    intro q
    have := congrArg List.length q
    simp at this
    have := this.2
    subst this
    simp at u1
  have hT : tr h (bytesOf w p ++ u) ≠ none := by rw [tr_of_walk hwy]; simp
  obtain ⟨k, v, a, ⟨t, rfl⟩⟩ := (R.C.node hb hne).mp hT
  cases t with
  | nil =>
    exfalso
    obtain ⟨e, _, he⟩ := List.mem_map.mp a
    have := congrArg (List.length ∘ Prod.fst) he
    simp only [Function.comp, bytesOf_length, List.length_append, List.length_nil, Nat.add_zero] at this
    have h1 : (e.1.length * w) % w = 0 := Nat.mul_mod_left _ _
    rw [this, Nat.mul_comm, Nat.mul_add_mod, Nat.mod_eq_of_lt u2] at h1
    omega
  | cons l t =>
    refine ⟨l, R.W.byte _ v a l (by simp), ?_⟩
    rw [child_isSome_tr hwy]
    exact R.C.of_px ⟨_, v, a, t, by simp⟩

theorem SRep.stableBool {m : KMap} (R : SRep h F m) {s i} (hb : ∀ b ∈ s, b < 256) (hw : walk h 1 s = some i)
    (h2 : 2 ≤ i) : itStableBool h i = Verif.Model.Trie.isTail h i := by
  have hlt := (R.I.root_used hw).lt R.I.fl
  have hs : s ≠ [] := by rintro rfl; simp [walk] at hw; omega
  have hT : tr h s ≠ none := by rw [tr_of_walk hw]; simp
  have hin := (R.C.inner s).mpr ((R.C.node hb hs).mp hT)
  rw [tr_of_walk hw] at hin
  simp only [Option.some.injEq] at hin
  have hbase : 1 ≤ h.base i := by
    unfold kind at hin
    split at hin
    · assumption
    · simp at hin
  rw [Verif.Model.Trie.itStableBool, if_neg (by omega), rdB, if_pos hlt.2, Verif.Model.Trie.isTail, if_pos hlt]
  simp only [Option.bind_some]
  rw [if_pos (by omega)]
  congr 1
  rw [decide_eq_decide]
  constructor
  · intro q; exact Or.inr ⟨hbase, q⟩
  · rintro (⟨q, _⟩ | q)
    · omega
    · exact q.2

/-- `operator[]` of labels wider than a byte, where it is defined. -/
theorem wideAtLoop_spec (I : Inv h F) : ∀ (cs : List Nat) (x j : Nat), Used h F x → (∀ b ∈ cs, b < 256) →
    wideAtLoop h cs x = some j → j = (walk h x cs).getD 0 := by
  intro cs
  induction cs with
  | nil => intro x j _ _ e; simpa [wideAtLoop, walk] using e.symm
  | cons ch cs ih =>
    intro x j u hb e
    have hx := u.lt I.fl
    rw [wideAtLoop, rdB, if_pos hx.2] at e
    simp only [Option.bind_some] at e
    have hch := hb ch (by simp)
    by_cases h1 : h.base x ≤ 0
    · rw [if_pos h1] at e
      have : child h x ch = none := by unfold child; rw [if_neg (by omega)]
      simp only [walk, this]
      simpa using e.symm
    · rw [if_neg h1] at e
      unfold rdC at e
      by_cases h2 : (h.base x).toNat + ch < h.len
      · rw [if_pos h2] at e
        simp only [Option.bind_some] at e
        by_cases h3 : h.check ((h.base x).toNat + ch) = (x : Int)
        · rw [if_pos h3] at e
          have hc : child h x ch = some ((h.base x).toNat + ch) := by
            unfold child; rw [if_pos ⟨by omega, by omega, h2, h3⟩]
          have := ih _ j (I.child_used u hc).1 (fun z hz => hb z (by simp [hz])) e
          simp only [walk, hc, Option.bind_some]
          exact this
        · rw [if_neg h3] at e
          have : child h x ch = none := by unfold child; rw [if_neg (fun q => h3 q.2.2.2)]
          simp only [walk, this]
          simpa using e.symm
      · rw [if_neg h2] at e; simp at e

theorem wideAt_spec (I : Inv h F) {w x l j} (hw : 0 < w) (u : Used h F x) (hl : l < 256 ^ w)
    (e : wideAt w h x l = some j) : j = (walk h x (serialize w l)).getD 0 := by
  unfold wideAt at e
  by_cases h1 : w = 1
  · subst h1
    rw [if_pos rfl] at e
    have h256 : l < 256 := by simpa using hl
    rw [itAt_spec I u (by omega)] at e
    have : serialize 1 l = [l] := by
      rw [serialize_succ]
      simp [serialize]; omega
    rw [this]
    simp only [walk]
    have := Option.some.inj e
    rw [← this]
    cases child h x l <;> rfl
  · rw [if_neg h1, if_pos (u.lt I.fl)] at e
    exact wideAtLoop_spec I _ x j u (serialize_bytes w l) e

theorem itString_spec (I : Inv h F) {w p i} (hw : 0 < w) (hp : Wd w p) (hi : walk h 1 (bytesOf w p) = some i) :
    itString w h i = some p := by
  have hd := I.depth hi
  rw [bytesOf_length] at hd
  have : p.length ≤ p.length * w := Nat.le_mul_of_pos_right _ hw
  rw [itString, stringLoop_spec I hw _ p i (by omega) hp hi]
  simp

end

end Verif.Proof.Trie
