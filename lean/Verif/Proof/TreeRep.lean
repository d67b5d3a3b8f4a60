import Verif.Proof.TreeLink
import Verif.Proof.Forest

/-! The representation invariant of the tree container. -/
namespace Verif.Proof.Tree
open Verif.Model.Tree Verif.Spec Verif.Spec.Forest
variable {α : Type}

/-- The free list holds `l` in increasing order. -/
structure FL (t : T α) (l : List Nat) : Prop where
  sorted : l.Pairwise (· < ·)
  head : t.next 0 = l.headD 0
  links : ∀ A x B, l = A ++ x :: B → t.next x = B.headD 0 ∧ t.prev x = A.getLastD 0
  child : ∀ x ∈ l, t.child x = 0

/-- `t` holds the forest `f`, the trees `g` that are linked nowhere, and the free nodes `l`. -/
structure Rep (t : T α) (f g : Forest α) (l : List Nat) : Prop where
  nd : (ids f ++ (ids g ++ l)).Nodup
  range : ∀ i, (1 ≤ i ∧ i < t.len) ↔ i ∈ ids f ++ (ids g ++ l)
  len : 0 < t.len
  chain : ∀ p, p = 0 ∨ p ∈ ids f → Chain t p (children f p)
  gchain : ∀ p ∈ ids g, Chain t p (kidsOf g p)
  val : ∀ e ∈ nodes f ++ nodes g, t.val e.1 = e.2
  fl : FL t l

section
variable {t : T α} {f g : Forest α} {l : List Nat}

theorem Rep.ndf (R : Rep t f g l) : (ids f).Nodup := (List.nodup_append.mp R.nd).1
theorem Rep.ndg (R : Rep t f g l) : (ids g).Nodup := (List.nodup_append.mp (List.nodup_append.mp R.nd).2.1).1
theorem Rep.ndl (R : Rep t f g l) : l.Nodup := (List.nodup_append.mp (List.nodup_append.mp R.nd).2.1).2.1

theorem Rep.fg (R : Rep t f g l) {x} (h : x ∈ ids f) : x ∉ ids g := fun h' =>
  (List.nodup_append.mp R.nd).2.2 x h x (by simp [h']) rfl
theorem Rep.fl' (R : Rep t f g l) {x} (h : x ∈ ids f) : x ∉ l := fun h' =>
  (List.nodup_append.mp R.nd).2.2 x h x (by simp [h']) rfl
theorem Rep.gl (R : Rep t f g l) {x} (h : x ∈ ids g) : x ∉ l := fun h' =>
  (List.nodup_append.mp (List.nodup_append.mp R.nd).2.1).2.2 x h x h' rfl

theorem Rep.f_lt (R : Rep t f g l) {x} (h : x ∈ ids f) : 1 ≤ x ∧ x < t.len := (R.range x).mpr (by simp [h])
theorem Rep.g_lt (R : Rep t f g l) {x} (h : x ∈ ids g) : 1 ≤ x ∧ x < t.len := (R.range x).mpr (by simp [h])
theorem Rep.l_lt (R : Rep t f g l) {x} (h : x ∈ l) : 1 ≤ x ∧ x < t.len := (R.range x).mpr (by simp [h])

theorem Rep.f0 (R : Rep t f g l) : 0 ∉ ids f := fun h => by have := R.f_lt h; omega
theorem Rep.g0 (R : Rep t f g l) : 0 ∉ ids g := fun h => by have := R.g_lt h; omega
theorem Rep.l0 (R : Rep t f g l) : 0 ∉ l := fun h => by have := R.l_lt h; omega

end

theorem children_sub (f : Forest α) (p : Nat) : ∀ x ∈ children f p, x ∈ ids f := by
  intro x hx
  unfold children at hx
  split at hx
  · exact roots_sub f x hx
  · exact kidsOf_sub f p x hx

theorem rep_empty [Inhabited α] : Rep (T.empty : T α) .nil .nil [] := by
  refine ⟨by simp [ids], ?_, by simp [T.empty], ?_, by simp [ids], by simp [nodes], ?_⟩
  · intro i; simp only [T.empty, ids, List.append_nil, List.not_mem_nil, iff_false]; omega
  · intro p hp
    have : children (Forest.nil : Forest α) p = [] := by unfold children; split <;> rfl
    rw [this]
    exact ⟨rfl, by simp, by simp, by simp⟩
  · exact ⟨by simp, rfl, by simp, by simp⟩

/-- Allocation: the smallest unused index. -/
theorem allocate_spec {t : T α} {f g l} (R : Rep t f g l) (v : α) :
    ∃ t' n l', allocate t v = some (t', n) ∧ Rep t' f (.cons n v .nil g) l' ∧ n ≠ 0 ∧ n ∉ ids f ∧ n ∉ ids g ∧
      (∀ m, 0 < m → m < n → m ∈ ids f ∨ m ∈ ids g) ∧ t'.len = (if l = [] then t.len + 1 else t.len) := by
  unfold allocate T.rd
  rw [if_pos R.len, Option.bind_some, R.fl.head]
  cases l with
  | nil =>
    simp only [List.headD_nil, if_true]
    have hlt : ∀ x, x ∈ ids f ++ ids g → x ≠ t.len := by
      intro x hx e
      have : 1 ≤ x ∧ x < t.len := (R.range x).mpr (by simpa using hx)
      omega
    have hlen := R.len
    refine ⟨_, _, [], rfl, ⟨?_, ?_, ?_, ?_, ?_, ?_, ?_⟩, by omega, ?_, ?_, ?_, rfl⟩
    · have := R.nd
      simp only [ids, List.append_nil, List.nil_append] at this ⊢
      rw [List.nodup_middle, List.nodup_cons]
      refine ⟨fun w => hlt _ w rfl, this⟩
    · intro i
      have := R.range i
      simp only [ids, T.push, List.append_nil, List.nil_append, List.mem_append, List.mem_cons] at this ⊢
      constructor
      · intro hi
        by_cases e : i = t.len
        · exact Or.inr (Or.inl e)
        · rcases this.mp (by omega) with w | w
          · exact Or.inl w
          · exact Or.inr (Or.inr w)
      · rintro (w | w | w)
        · have := this.mpr (Or.inl w); omega
        · omega
        · have := this.mpr (Or.inr w); omega
    · simp [T.push]
    · intro p hp
      have hpl : p ≠ t.len := by
        rcases hp with rfl | hp
        · omega
        · exact hlt p (by simp [hp])
      apply (R.chain p hp).frame
      · simp [T.push, upd, hpl]
      · intro x hx
        have := hlt x (by simp [children_sub f p x hx])
        simp [T.push, upd, this]
    · intro p hp
      simp only [ids, List.nil_append, List.mem_cons] at hp
      by_cases e : p = t.len
      · subst e
        rw [kidsOf_self]
        exact ⟨by simp [T.push, upd, roots], by simp [roots], by simp [roots], by simp [roots]⟩
      · have hp := hp.resolve_left e
        rw [kidsOf, if_neg e]
        apply (R.gchain p hp).frame
        · simp [T.push, upd, e]
        · intro x hx
          have := hlt x (by simp [kidsOf_sub g p x hx])
          simp [T.push, upd, this]
    · intro e he
      simp only [nodes, List.nil_append, List.mem_append, List.mem_cons] at he
      rcases he with he | he | he
      · have hm := R.val e (by simp [he])
        have : e.1 ≠ t.len := hlt e.1 (by
          have : e.1 ∈ ids f := by rw [ids_eq]; exact List.mem_map_of_mem he
          simp [this])
        simp [T.push, upd, this, hm]
      · subst he; simp [T.push, upd]
      · have hm := R.val e (by simp [he])
        have : e.1 ≠ t.len := hlt e.1 (by
          have : e.1 ∈ ids g := by rw [ids_eq]; exact List.mem_map_of_mem he
          simp [this])
        simp [T.push, upd, this, hm]
    · have h0 : (0 : Nat) ≠ t.len := by omega
      refine ⟨by simp, ?_, by simp, by simp⟩
      have := R.fl.head
      simp only [T.push, upd, h0, if_false]
      exact this
    · exact fun w => hlt _ (by simp [w]) rfl
    · exact fun w => hlt _ (by simp [w]) rfl
    · intro m h1 h2
      have := (R.range m).mp (by omega)
      simpa using this
  | cons n r =>
    have hn : n ∈ n :: r := by simp
    have hnl := R.l_lt hn
    have hn0 : n ≠ 0 := by omega
    have hnr : n ∉ r := (List.nodup_cons.mp R.ndl).1
    obtain ⟨hnx, hpv⟩ := R.fl.links [] n r rfl
    have hrl : r.headD 0 < t.len := by
      cases r with
      | nil => exact R.len
      | cons a r => exact (R.l_lt (by simp)).2
    simp only [List.getLastD_nil] at hpv
    simp only [List.headD_cons, hn0, if_false, hnl.2, if_true, Option.bind_some, hpv, hnx, T.setVal, T.setNext,
      T.setPrev, R.len, hrl]
    have haux : ∀ x, x ∈ ids f ++ ids g → x ≠ n ∧ x ≠ 0 ∧ x ≠ r.headD 0 := by
      intro x hx
      have hxl : x ∉ n :: r := by
        rcases List.mem_append.mp hx with w | w
        · exact R.fl' w
        · exact R.gl w
      have hx0 : x ≠ 0 := by
        rintro rfl
        rcases List.mem_append.mp hx with w | w
        · exact R.f0 w
        · exact R.g0 w
      refine ⟨by rintro rfl; exact hxl (by simp), hx0, ?_⟩
      intro e
      cases r with
      | nil => exact hx0 e
      | cons a r => exact hxl (by simp at e; simp [e])
    refine ⟨_, _, r, rfl, ⟨?_, ?_, R.len, ?_, ?_, ?_, ?_⟩, hn0, ?_, ?_, ?_, by simp⟩
    · have := R.nd
      simp only [ids, List.nil_append] at this ⊢
      refine (List.Perm.nodup_iff ?_).mp this
      apply List.Perm.append_left
      rw [List.cons_append]
      exact List.perm_middle
    · intro i
      rw [R.range i]
      simp only [ids, List.nil_append, List.mem_append, List.mem_cons]
      tauto
    · intro p hp
      refine (R.chain p hp).frame (by rfl) ?_
      intro x hx
      obtain ⟨h1, h2, h3⟩ := haux x (by simp [children_sub f p x hx])
      simp [upd, h2]
      intro e; exact absurd e (by simpa using h3)
    · intro p hp
      simp only [ids, List.nil_append, List.mem_cons] at hp
      by_cases e : p = n
      · subst e
        rw [kidsOf_self]
        exact ⟨by simpa [roots] using R.fl.child p (by simp), by simp [roots], by simp [roots], by simp [roots]⟩
      · have hp := hp.resolve_left e
        rw [kidsOf, if_neg e]
        refine (R.gchain p hp).frame (by rfl) ?_
        intro x hx
        obtain ⟨h1, h2, h3⟩ := haux x (by simp [kidsOf_sub g p x hx])
        simp [upd, h2]
        intro e; exact absurd e (by simpa using h3)
    · intro e he
      simp only [nodes, List.nil_append, List.mem_append, List.mem_cons] at he
      have hids : ∀ h : Forest α, e ∈ nodes h → e.1 ∈ ids h := fun h he => by
        rw [ids_eq]; exact List.mem_map_of_mem he
      rcases he with he | he | he
      · have := (haux e.1 (by simp [hids f he])).1
        simp [upd, this, R.val e (by simp [he])]
      · subst he; simp [upd]
      · have := (haux e.1 (by simp [hids g he])).1
        simp [upd, this, R.val e (by simp [he])]
    · refine ⟨(List.pairwise_cons.mp R.fl.sorted).2, by simp [upd], ?_, fun x hx => R.fl.child x (by simp [hx])⟩
      intro A x B e
      obtain ⟨h1, h2⟩ := R.fl.links (n :: A) x B (by simp [e])
      have hx0 : x ≠ 0 := by rintro rfl; exact R.l0 (by rw [e]; simp)
      refine ⟨by simp [upd, hx0, h1], ?_⟩
      cases A with
      | nil => subst e; simp [upd]
      | cons a A =>
        have hxa : x ≠ r.headD 0 := by
          rw [e]
          rintro rfl
          have := (List.nodup_cons.mp R.ndl).2
          rw [e] at this
          simp at this
        show upd t.prev _ _ x = _
        unfold upd
        rw [if_neg hxa, h2, List.getLastD_cons, List.getLastD_cons, List.getLastD_cons]
    · exact fun w => (haux n (by simp [w])).1 rfl
    · exact fun w => (haux n (by simp [w])).1 rfl
    · intro m h1 h2
      have := (R.range m).mp (by omega)
      simp only [List.mem_append, List.mem_cons] at this
      rcases this with w | w | w | w
      · exact Or.inl w
      · exact Or.inr w
      · omega
      · have := (List.pairwise_cons.mp R.fl.sorted).1 m w
        omega

theorem freeWalk_spec {t : T α} {i : Nat} : ∀ (A : List Nat) (before : Nat) (B : List Nat) (fuel : Nat),
    (∀ x ∈ A, x < i ∧ x ≠ 0 ∧ x < t.len) → (∀ x ∈ B, i < x) → A.length ≤ fuel →
    (∀ C x D, A = C ++ x :: D → t.next x = (D ++ B).headD 0) →
    freeWalk t i fuel before ((A ++ B).headD 0) = some (A.getLastD before) := by
  intro A
  induction A with
  | nil =>
    intro before B fuel _ hB _ _
    rw [freeWalk.eq_def]; dsimp only; rw [if_neg]; · rfl
    rintro ⟨h1, h2⟩
    cases B with
    | nil => exact h1 rfl
    | cons b B => have := hB b (by simp); simp at h2; omega
  | cons a A ih =>
    intro before B fuel hA hB hf hnx
    obtain ⟨h1, h2, h3⟩ := hA a (by simp)
    cases fuel with
    | zero => simp at hf
    | succ fuel =>
      rw [freeWalk, List.cons_append, List.headD_cons, if_pos ⟨h2, h1⟩]
      unfold T.rd
      rw [if_pos h3, Option.bind_some, hnx [] a A rfl, ih a B fuel (fun x hx => hA x (by simp [hx])) hB
        (by simp at hf; omega) (fun C x D e => hnx (a :: C) x D (by simp [e])), List.getLastD_cons]

/-- The trees of `k`, last one first, before those of `g`. -/
def revAppend : Forest α → Forest α → Forest α
  | .nil, g => g
  | .cons i v c s, g => revAppend s (.cons i v c g)

theorem roots_revAppend (k g : Forest α) : roots (revAppend k g) = (roots k).reverse ++ roots g := by
  induction k generalizing g with
  | nil => rfl
  | cons i v c s _ hs => rw [revAppend, hs]; simp [roots]

theorem nodes_revAppend (k g : Forest α) : (nodes (revAppend k g)).Perm (nodes k ++ nodes g) := by
  induction k generalizing g with
  | nil => rfl
  | cons i v c s _ hs =>
    rw [revAppend]
    refine (hs _).trans ?_
    classical
    rw [List.perm_iff_count]
    intro a
    simp only [nodes, List.count_cons, List.count_append]; omega

theorem kidsOf_revAppend_right {k : Forest α} {q : Nat} (h : q ∉ ids k) : ∀ g, kidsOf (revAppend k g) q = kidsOf g q := by
  induction k with
  | nil => intro g; rfl
  | cons i v c s _ hs =>
    intro g
    simp only [ids, List.mem_cons, List.mem_append, not_or] at h
    rw [revAppend, hs h.2.2, kidsOf, if_neg h.1, kidsOf_nil h.2.1, List.nil_append]

theorem kidsOf_revAppend_left {k : Forest α} {q : Nat} (nd : (ids k).Nodup) :
    ∀ g, q ∉ ids g → kidsOf (revAppend k g) q = kidsOf k q := by
  induction k with
  | nil => intro g hg; rw [revAppend, kidsOf_nil hg]; rfl
  | cons i v c s _ hs =>
    intro g hg
    obtain ⟨a, b, ndc, nds, e⟩ := nodup_cons nd
    rw [revAppend]
    by_cases hq : q ∈ ids s
    · rw [hs nds, kidsOf_right nd hq]
      simp only [ids, List.mem_cons, List.mem_append, not_or]
      exact ⟨by rintro rfl; exact b hq, fun w => e q w hq, hg⟩
    · rw [kidsOf_revAppend_right hq, kidsOf, kidsOf, kidsOf_nil hg, kidsOf_nil hq]

theorem sorted_split {i : Nat} : ∀ (l : List Nat), l.Pairwise (· < ·) → i ∉ l →
    ∃ A B, l = A ++ B ∧ (∀ x ∈ A, x < i) ∧ ∀ x ∈ B, i < x := by
  intro l
  induction l with
  | nil => intro _ _; exact ⟨[], [], rfl, by simp, by simp⟩
  | cons a l ih =>
    intro h hi
    obtain ⟨h1, h2⟩ := List.pairwise_cons.mp h
    simp only [List.mem_cons, not_or] at hi
    by_cases ha : a < i
    · obtain ⟨A, B, e, hA, hB⟩ := ih h2 hi.2
      refine ⟨a :: A, B, by simp [e], ?_, hB⟩
      intro x hx
      rcases List.mem_cons.mp hx with rfl | hx
      · exact ha
      · exact hA x hx
    · refine ⟨[], a :: l, rfl, by simp, ?_⟩
      intro x hx
      rcases List.mem_cons.mp hx with rfl | hx
      · omega
      · have := h1 x hx; omega

/-- Freeing a detached node turns its children into detached trees. -/
theorem free_spec {t : T α} {f g k l i v} (R : Rep t f (.cons i v k g) l) :
    ∃ t' l', free t i = some t' ∧ Rep t' f (revAppend k g) l' ∧ t'.len = t.len := by
  have hig : i ∈ ids (Forest.cons i v k g) := by simp [ids]
  have hi := R.g_lt hig
  have hil := R.gl hig
  obtain ⟨A, B, rfl, hA, hB⟩ := sorted_split l R.fl.sorted hil
  have hbl : A.getLastD 0 < t.len := by
    by_cases h : A = []
    · subst h; exact R.len
    · exact (R.l_lt (List.mem_append.mpr (Or.inl (getLastD_mem h 0)))).2
  have hal : B.headD 0 < t.len := by
    by_cases h : B = []
    · subst h; exact R.len
    · exact (R.l_lt (by rw [List.mem_append]; exact Or.inr (headD_mem h 0))).2
  have hbnext : t.next (A.getLastD 0) = B.headD 0 := by
    rcases List.eq_nil_or_concat A with rfl | ⟨A, b, rfl⟩
    · simpa using R.fl.head
    · rw [List.concat_eq_append] at *
      rw [getLastD_concat]
      exact (R.fl.links A b B (by simp)).1
  have hfuel : A.length ≤ t.len := by
    have : (A ++ B).length ≤ t.len := by
      have hsub : ∀ x ∈ A ++ B, x ∈ List.range t.len := fun x hx => List.mem_range.mpr (R.l_lt hx).2
      have := (List.subperm_of_subset R.ndl hsub).length_le
      simpa using this
    simp at this; omega
  have hwalk := freeWalk_spec (t := t) (i := i) A 0 B t.len
    (fun x hx => ⟨hA x hx, by have := R.l_lt (x := x) (by simp [hx]); omega, (R.l_lt (x := x) (by simp [hx])).2⟩) hB hfuel
    (by
      intro C x D e
      exact (R.fl.links C x (D ++ B) (by simp [e])).1)
  have hb_ne : A.getLastD 0 ≠ i := by
    by_cases h : A = []
    · subst h; simp; omega
    · have := hA _ (getLastD_mem h 0); omega
  have ha_ne : B.headD 0 ≠ i := by
    by_cases h : B = []
    · subst h; simp; omega
    · have := hB _ (headD_mem h 0); omega
  have haux : ∀ x, x ≠ 0 → x ∉ A ++ B → x ≠ A.getLastD 0 ∧ x ≠ B.headD 0 := by
    intro x hx0 hx
    rw [List.mem_append, not_or] at hx
    constructor
    · rintro e
      by_cases h : A = []
      · subst h; exact hx0 e
      · exact hx.1 (e ▸ getLastD_mem h 0)
    · rintro e
      by_cases h : B = []
      · subst h; exact hx0 e
      · exact hx.2 (e ▸ headD_mem h 0)
  unfold free T.rd
  simp only [hi.2, if_true, R.len, Option.bind_some, R.fl.head, hwalk, hbl, hbnext, T.setNext, T.setPrev, hal,
    T.setParent, T.setChild]
  have hperm : (ids (revAppend k g) ++ (A ++ i :: B)).Perm (ids (Forest.cons i v k g) ++ (A ++ B)) := by
    have h1 : (ids (revAppend k g)).Perm (ids k ++ ids g) := by
      have := (nodes_revAppend k g).map Prod.fst
      simpa [ids_eq] using this
    refine (h1.append_right _).trans ?_
    rw [List.perm_iff_count]
    intro a
    simp only [ids, List.count_cons, List.count_append]; omega
  have hkg : ∀ x ∈ ids k ++ ids g, x ∈ ids (Forest.cons i v k g) := by
    intro x hx; simp only [ids, List.mem_cons]; exact Or.inr hx
  have hcons := nodup_cons R.ndg
  refine ⟨_, A ++ i :: B, rfl, ⟨?_, ?_, R.len, ?_, ?_, ?_, ?_⟩, rfl⟩
  · exact ((hperm.append_left (ids f)).nodup_iff).mpr R.nd
  · intro j
    rw [(hperm.append_left (ids f)).mem_iff]
    exact R.range j
  · intro p hp
    have hpi : p ≠ i := by
      rintro rfl
      rcases hp with w | w
      · omega
      · exact R.fg w hig
    apply (R.chain p hp).frame
    · simp [upd, hpi]
    · intro x hx
      have hxf := children_sub f p x hx
      have hx0 : x ≠ 0 := by rintro rfl; exact R.f0 hxf
      obtain ⟨h1, h2⟩ := haux x hx0 (R.fl' hxf)
      have hxi : x ≠ i := by rintro rfl; exact R.fg hxf hig
      refine ⟨by simp [upd, hxi], ?_, ?_⟩
      · show upd (upd t.next _ _) _ _ x = _
        simp only [upd, if_neg hxi, if_neg h1]
      · show upd (upd t.prev _ _) _ _ x = _
        simp only [upd, if_neg hxi, if_neg h2]
  · intro p hp
    have hpkg : p ∈ ids k ++ ids g := by
      have := (nodes_revAppend k g).map Prod.fst
      rw [← ids_eq, List.map_append, ← ids_eq, ← ids_eq] at this
      exact this.mem_iff.mp hp
    have hpg := hkg p hpkg
    have hpi : p ≠ i := by
      rintro rfl
      rcases List.mem_append.mp hpkg with w | w
      · exact hcons.1 w
      · exact hcons.2.1 w
    have hk : kidsOf (revAppend k g) p = kidsOf (Forest.cons i v k g) p := by
      rcases List.mem_append.mp hpkg with w | w
      · rw [kidsOf_revAppend_left hcons.2.2.1 g (hcons.2.2.2.2 p w), kidsOf_left R.ndg w]
      · rw [kidsOf_revAppend_right (fun w' => hcons.2.2.2.2 p w' w), kidsOf_right R.ndg w]
    rw [hk]
    have hni : ∀ x ∈ kidsOf (Forest.cons i v k g) p, x ≠ i := by
      rintro x hx rfl
      rw [← hk] at hx
      have := kidsOf_sub (revAppend k g) p x hx
      have hh := (nodes_revAppend k g).map Prod.fst
      rw [← ids_eq, List.map_append, ← ids_eq, ← ids_eq] at hh
      rcases List.mem_append.mp (hh.mem_iff.mp this) with w | w
      · exact hcons.1 w
      · exact hcons.2.1 w
    apply (R.gchain p hpg).frame
    · simp [upd, hpi]
    · intro x hx
      have hxg := kidsOf_sub _ p x hx
      have hx0 : x ≠ 0 := by rintro rfl; exact R.g0 hxg
      obtain ⟨h1, h2⟩ := haux x hx0 (R.gl hxg)
      have hxi := hni x hx
      refine ⟨by simp [upd, hxi], ?_, ?_⟩
      · show upd (upd t.next _ _) _ _ x = _
        simp only [upd, if_neg hxi, if_neg h1]
      · show upd (upd t.prev _ _) _ _ x = _
        simp only [upd, if_neg hxi, if_neg h2]
  · intro e he
    apply R.val e
    rcases List.mem_append.mp he with w | w
    · simp [w]
    · have := (nodes_revAppend k g).mem_iff.mp w
      simp only [nodes, List.mem_append, List.mem_cons] at this ⊢
      tauto
  · refine ⟨?_, ?_, ?_, ?_⟩
    · rw [List.pairwise_append, List.pairwise_cons]
      have := List.pairwise_append.mp R.fl.sorted
      refine ⟨this.1, ⟨hB, this.2.1⟩, ?_⟩
      intro a ha b hb
      rcases List.mem_cons.mp hb with rfl | hb
      · exact hA a ha
      · exact this.2.2 a ha b hb
    · show upd (upd t.next _ _) _ _ 0 = _
      have h0i : (0 : Nat) ≠ i := by omega
      simp only [upd, if_neg h0i]
      by_cases h : A = []
      · subst h; simp
      · rw [if_neg, R.fl.head]
        · cases A with
          | nil => exact absurd rfl h
          | cons a A => rfl
        · intro e
          exact R.l0 (by rw [e]; exact List.mem_append.mpr (Or.inl (getLastD_mem h 0)))
    · intro C x D e
      show upd (upd t.next _ _) _ _ x = _ ∧ upd (upd t.prev _ _) _ _ x = _
      rcases split_mid e.symm with ⟨E, rfl, rfl⟩ | ⟨rfl, rfl, rfl⟩ | ⟨E, rfl, rfl⟩
      · have hxi : x ≠ i := by have := hA x (by simp); omega
        obtain ⟨h1, h2⟩ := R.fl.links C x (E ++ B) (by simp)
        have hxB : x ≠ B.headD 0 := by
          intro e
          by_cases h : B = []
          · subst h; exact R.l0 (by simp at e; rw [← e]; simp)
          · have := hB _ (headD_mem h 0)
            have := hA x (by simp)
            omega
        simp only [upd, if_neg hxi, if_neg hxB, h2, and_true]
        by_cases hE : E = []
        · subst hE
          rw [getLastD_concat, if_pos rfl]; rfl
        · rw [if_neg, h1]
          · cases E with
            | nil => exact absurd rfl hE
            | cons _ _ => rfl
          · intro w
            have hs : C ++ x :: E = (C ++ [x]) ++ E := by simp
            rw [hs, getLastD_append hE] at w
            have hm := getLastD_mem hE 0
            rw [← w] at hm
            have := (List.nodup_append.mp R.ndl).1
            rw [hs] at this
            exact (List.nodup_append.mp this).2.2 x (by simp) x hm rfl
      · simp only [upd, if_true]
        exact ⟨trivial, by rw [if_neg (fun w => ha_ne w.symm)]⟩
      · have hxi : x ≠ i := by have := hB x (by simp); omega
        obtain ⟨h1, h2⟩ := R.fl.links (A ++ E) x D (by simp)
        have hxA : x ≠ A.getLastD 0 := by
          intro e
          by_cases h : A = []
          · subst h; exact R.l0 (by simp at e; rw [← e]; simp)
          · have := hA _ (getLastD_mem h 0)
            have := hB x (by simp)
            omega
        simp only [upd, if_neg hxi, if_neg hxA, h1, true_and]
        by_cases hE : E = []
        · subst hE
          rw [List.nil_append, List.headD_cons, if_pos rfl, getLastD_concat]
        · have hne : x ≠ (E ++ x :: D).headD 0 := by
            intro w
            have : (E ++ x :: D).headD 0 = E.headD 0 := by
              cases E with
              | nil => exact absurd rfl hE
              | cons _ _ => rfl
            rw [this] at w
            have hm := headD_mem hE 0
            rw [← w] at hm
            have := (List.nodup_append.mp R.ndl).2.1
            exact (List.nodup_append.mp this).2.2 x hm x (by simp) rfl
          rw [if_neg hne, h2, getLastD_append hE]
          have : A ++ i :: E = (A ++ [i]) ++ E := by simp
          rw [this, getLastD_append hE]
    · intro x hx
      show upd t.child i 0 x = 0
      unfold upd
      by_cases h : x = i
      · rw [if_pos h]
      · rw [if_neg h]
        apply R.fl.child
        simp only [List.mem_append, List.mem_cons] at hx ⊢
        tauto

/-- Linking a detached tree. -/
theorem link_rep {t : T α} {f g k l n v p pos} (R : Rep t f (.cons n v k g) l) (hp : IsPos f p pos) :
    ∃ t', link t p pos n = some t' ∧ Rep t' (Forest.insert p pos n v k f) g l ∧ t'.len = t.len := by
  have hng : n ∈ ids (Forest.cons n v k g) := by simp [ids]
  have hn0 : n ≠ 0 := by have := R.g_lt hng; omega
  have hnf : n ∉ ids f := fun w => R.fg w hng
  have hcons := nodup_cons R.ndg
  obtain ⟨A, B, e1, e2, e3, e4, e5, e6, hperm⟩ := insert_spec (v := v) (k := k) R.ndf R.f0 hp hnf hn0 (by
    intro x hx
    have hxg : x ∈ ids (Forest.cons n v k g) := by simp [ids, hx]
    refine ⟨fun w => R.fg w hxg, by rintro rfl; exact hcons.1 hx, by rintro rfl; exact R.g0 hxg⟩)
  have C := R.chain p hp.1
  rw [e1] at C
  have hAB : ∀ x ∈ A ++ B, x ∈ ids f := by rw [← e1]; exact children_sub f p
  have ndAB : (A ++ B).Nodup := by
    rw [← e1]
    have hr : ∀ f : Forest α, (ids f).Nodup → (roots f).Nodup := by
      intro f
      induction f with
      | nil => intro _; exact List.nodup_nil
      | cons i v k s _ hs =>
        intro nd
        obtain ⟨a, b, c, d, e⟩ := nodup_cons nd
        rw [roots, List.nodup_cons]
        exact ⟨fun w => b (roots_sub s i w), hs d⟩
    have hk : ∀ f : Forest α, (ids f).Nodup → ∀ q, (kidsOf f q).Nodup := by
      intro f
      induction f with
      | nil => intro _ q; exact List.nodup_nil
      | cons i v k s hk hs =>
        intro nd q
        obtain ⟨a, b, c, d, e⟩ := nodup_cons nd
        rw [kidsOf]
        split
        · exact hr k c
        · rw [List.nodup_append]
          refine ⟨hk c q, hs d q, ?_⟩
          rintro x hx y hy rfl
          exact e x (kidsOf_sub k q x hx) (kidsOf_sub s q x hy)
    unfold children
    split
    · exact hr f R.ndf
    · exact hk f R.ndf p
  have hplt : p < t.len := by
    rcases hp.1 with rfl | h
    · exact R.len
    · exact (R.f_lt h).2
  obtain ⟨t', e, L⟩ := link_spec C ndAB (fun w => R.f0 (hAB 0 w)) (fun w => hnf (hAB n w)) hn0 hplt (R.g_lt hng).2
    (fun x hx => (R.f_lt (hAB x hx)).2)
  rw [e2] at e
  have hids : (ids (Forest.insert p pos n v k f)).Perm (n :: ids k ++ ids f) := by
    have := hperm.map Prod.fst
    simpa [ids_eq] using this
  have hall : (ids (Forest.insert p pos n v k f) ++ (ids g ++ l)).Perm (ids f ++ (ids (Forest.cons n v k g) ++ l)) := by
    refine (hids.append_right _).trans ?_
    rw [List.perm_iff_count]
    intro a
    simp only [ids, List.count_cons, List.count_append]; omega
  have hpk : p ≠ n := by
    rintro rfl
    rcases hp.1 with w | w
    · exact hn0 w
    · exact hnf w
  refine ⟨t', e, ⟨hall.nodup_iff.mpr R.nd, ?_, by rw [L.len]; exact R.len, ?_, ?_, ?_, ?_⟩, L.len⟩
  · intro i
    rw [L.len, hall.mem_iff]
    exact R.range i
  · intro q hq
    by_cases hqp : q = p
    · subst hqp
      rw [e3]
      exact L.chain C ndAB (fun w => hnf (hAB n w))
    · have hq' : (q = 0 ∨ q ∈ ids f) ∨ q = n ∨ q ∈ ids k := by
        rcases hq with w | w
        · exact Or.inl (Or.inl w)
        · have := hids.mem_iff.mp w
          simp only [List.mem_append, List.mem_cons] at this
          tauto
      rcases hq' with hq' | rfl | hq'
      · rw [e4 q hqp hq']
        refine L.frame (R.chain q hq') hqp (fun x hx => ⟨?_, ?_⟩)
        · rintro rfl; exact hnf (children_sub f q x hx)
        · intro w
          have h1 := C.par x w
          have h2 := (R.chain q hq').par x hx
          exact hqp (h2.symm.trans h1)
      · rw [e6, ← kidsOf_self (i := q) (v := v) (k := k) (s := g)]
        refine L.frame (R.gchain q hng) hqp (fun x hx => ⟨?_, fun w => R.fg (hAB x w) (kidsOf_sub _ _ x hx)⟩)
        rintro rfl
        rw [kidsOf_self] at hx
        exact hcons.1 (roots_sub k x hx)
      · have hqg : q ∈ ids (Forest.cons n v k g) := by simp [ids, hq']
        rw [e5 q hq', ← kidsOf_left R.ndg hq']
        refine L.frame (R.gchain q hqg) hqp (fun x hx => ⟨?_, fun w => R.fg (hAB x w) (kidsOf_sub _ _ x hx)⟩)
        rintro rfl
        rw [kidsOf_left R.ndg hq'] at hx
        exact hcons.1 (kidsOf_sub k q x hx)
  · intro q hq
    have hqg : q ∈ ids (Forest.cons n v k g) := by simp [ids, hq]
    have hqp : q ≠ p := by
      rintro rfl
      rcases hp.1 with rfl | w
      · exact R.g0 hqg
      · exact R.fg w hqg
    rw [← kidsOf_right R.ndg hq]
    refine L.frame (R.gchain q hqg) hqp (fun x hx => ⟨?_, fun w => R.fg (hAB x w) (kidsOf_sub _ _ x hx)⟩)
    rintro rfl
    rw [kidsOf_right R.ndg hq] at hx
    exact hcons.2.1 (kidsOf_sub g q x hx)
  · intro e he
    rw [L.val]
    apply R.val
    simp only [List.mem_append, nodes, List.mem_cons] at he ⊢
    rcases he with he | he
    · have := hperm.mem_iff.mp he
      simp only [List.mem_append, List.mem_cons] at this
      tauto
    · tauto
  · have hx : ∀ x, x = 0 ∨ x ∈ l → x ≠ n ∧ x ∉ A ++ B := by
      rintro x (rfl | hx)
      · exact ⟨hn0.symm, fun w => R.f0 (hAB 0 w)⟩
      · exact ⟨by rintro rfl; exact R.gl hng hx, fun w => R.fl' (hAB x w) hx⟩
    have hnext : ∀ x, x = 0 ∨ x ∈ l → t'.next x = t.next x ∧ t'.prev x = t.prev x := by
      intro x h
      obtain ⟨h1, h2⟩ := hx x h
      rw [List.mem_append, not_or] at h2
      constructor
      · rw [L.next, if_neg h1, if_neg]
        rintro ⟨w, e⟩
        exact h2.1 (e ▸ getLastD_mem w 0)
      · rw [L.prev, if_neg h1, if_neg, if_neg]
        · rintro ⟨_, w, e⟩; exact h2.1 (e ▸ headD_mem w 0)
        · rintro ⟨w, e⟩; exact h2.2 (e ▸ headD_mem w 0)
    refine ⟨R.fl.sorted, by rw [(hnext 0 (Or.inl rfl)).1, R.fl.head], ?_, ?_⟩
    · intro C x D e
      obtain ⟨h1, h2⟩ := hnext x (Or.inr (by rw [e]; simp))
      rw [h1, h2]
      exact R.fl.links C x D e
    · intro x h
      have hxp : x ≠ p := by
        rintro rfl
        rcases hp.1 with rfl | w
        · exact R.l0 h
        · exact R.fl' w h
      rw [L.child]
      split
      · simp [upd, hxp, R.fl.child x h]
      · exact R.fl.child x h

theorem children_nodup {f : Forest α} (nd : (ids f).Nodup) (p : Nat) : (children f p).Nodup := by
  have hr : ∀ f : Forest α, (ids f).Nodup → (roots f).Nodup := by
    intro f
    induction f with
    | nil => intro _; exact List.nodup_nil
    | cons i v k s _ hs =>
      intro nd
      obtain ⟨a, b, c, d, e⟩ := nodup_cons nd
      rw [roots, List.nodup_cons]
      exact ⟨fun w => b (roots_sub s i w), hs d⟩
  have hk : ∀ f : Forest α, (ids f).Nodup → ∀ q, (kidsOf f q).Nodup := by
    intro f
    induction f with
    | nil => intro _ q; exact List.nodup_nil
    | cons i v k s hk hs =>
      intro nd q
      obtain ⟨a, b, c, d, e⟩ := nodup_cons nd
      rw [kidsOf]
      split
      · exact hr k c
      · rw [List.nodup_append]
        refine ⟨hk c q, hs d q, ?_⟩
        rintro x hx y hy rfl
        exact e x (kidsOf_sub k q x hx) (kidsOf_sub s q x hy)
  unfold children
  split
  · exact hr f nd
  · exact hk f nd p

/-- Unlinking a tree. -/
theorem unlink_rep {t : T α} {f l x} (R : Rep t f .nil l) (hx : x ∈ ids f) :
    ∃ v k t', find f x = some (v, k) ∧ unlink t x = some t' ∧ Rep t' (Forest.erase x f) (.cons x v k .nil) l ∧
      t'.len = t.len := by
  obtain ⟨v, k, p, A, B, hf, hpar, hp, e1, e2, e3, e4, e5, hperm⟩ := erase_spec R.ndf R.f0 hx
  have hids : (ids f).Perm (x :: ids k ++ ids (Forest.erase x f)) := by
    have := hperm.map Prod.fst
    simpa [ids_eq] using this
  have hpf : p = 0 ∨ p ∈ ids f := hp.imp id ids_erase_sub
  have C := R.chain p hpf
  rw [e1] at C
  have nd := children_nodup R.ndf p
  rw [e1] at nd
  have hAB : ∀ y ∈ A ++ x :: B, y ∈ ids f := by rw [← e1]; exact children_sub f p
  have hplt : p < t.len := by
    rcases hpf with rfl | h
    · exact R.len
    · exact (R.f_lt h).2
  obtain ⟨t', e, L⟩ := unlink_spec C nd (fun w => R.f0 (hAB 0 w)) hplt (fun y hy => (R.f_lt (hAB y hy)).2)
  have hall : (ids (Forest.erase x f) ++ (ids (Forest.cons x v k .nil) ++ l)).Perm (ids f ++ (ids (.nil : Forest α) ++ l)) := by
    refine List.Perm.trans ?_ ((hids.symm).append_right _)
    rw [List.perm_iff_count]
    intro a
    simp only [ids, List.count_cons, List.count_append, List.count_nil]; omega
  have ndf := hids.nodup_iff.mp R.ndf
  have hpne : ∀ q, q = x ∨ q ∈ ids k → q ≠ p := by
    rintro q hq rfl
    rcases hp with w | w
    · have : q ∈ ids f := hids.mem_iff.mpr (by simp; tauto)
      rw [w] at this
      exact R.f0 this
    · exact (List.nodup_append.mp ndf).2.2 q (by simpa using hq) q w rfl
  have hfr : ∀ q l', q ≠ p → Chain t q l' → Chain t' q l' := by
    intro q l' hqp Cq
    refine L.frame Cq hqp (fun y hy w => ?_)
    have h1 := C.par y (by simp at w ⊢; tauto)
    have h2 := Cq.par y hy
    exact hqp (h2.symm.trans h1)
  refine ⟨v, k, t', hf, e, ⟨hall.nodup_iff.mpr R.nd, ?_, by rw [L.len]; exact R.len, ?_, ?_, ?_, ?_⟩, L.len⟩
  · intro i
    rw [L.len, hall.mem_iff]
    exact R.range i
  · intro q hq
    by_cases hqp : q = p
    · subst hqp
      rw [e2]
      exact L.chain C nd
    · rw [e3 q hqp hq]
      exact hfr q _ hqp (R.chain q (hq.imp id ids_erase_sub))
  · intro q hq
    simp only [ids, List.append_nil, List.mem_cons] at hq
    rcases hq with rfl | hq
    · rw [kidsOf_self, ← e4]
      exact hfr q _ (hpne q (Or.inl rfl)) (R.chain q (Or.inr hx))
    · have hqf : q ∈ ids f := hids.mem_iff.mpr (by simp [hq])
      have hqx : q ≠ x := by
        rintro rfl
        simp [hq] at ndf
      rw [kidsOf, if_neg hqx, kidsOf, List.append_nil, ← e5 q hq]
      exact hfr q _ (hpne q (Or.inr hq)) (R.chain q (Or.inr hqf))
  · intro e he
    rw [L.val]
    apply R.val
    have : e ∈ nodes f := by
      apply hperm.mem_iff.mpr
      simp only [List.mem_append, nodes, List.mem_cons, List.append_nil] at he ⊢
      tauto
    simp [this]
  · have hy : ∀ y, y = 0 ∨ y ∈ l → y ∉ A ++ B := by
      rintro y hy w
      have hyf := hAB y (by simp at w ⊢; tauto)
      rcases hy with rfl | hy
      · exact R.f0 hyf
      · exact R.fl' hyf hy
    have hnext : ∀ x, x = 0 ∨ x ∈ l → t'.next x = t.next x ∧ t'.prev x = t.prev x := by
      intro x h
      have h2 := hy x h
      rw [List.mem_append, not_or] at h2
      constructor
      · rw [L.next, if_neg]
        rintro ⟨w, e⟩
        exact h2.1 (e ▸ getLastD_mem w 0)
      · rw [L.prev, if_neg, if_neg]
        · rintro ⟨_, w, e⟩; exact h2.1 (e ▸ headD_mem w 0)
        · rintro ⟨w, e⟩; exact h2.2 (e ▸ headD_mem w 0)
    refine ⟨R.fl.sorted, by rw [(hnext 0 (Or.inl rfl)).1, R.fl.head], ?_, ?_⟩
    · intro C x D e
      obtain ⟨h1, h2⟩ := hnext x (Or.inr (by rw [e]; simp))
      rw [h1, h2]
      exact R.fl.links C x D e
    · intro x h
      have hxp : x ≠ p := by
        rintro rfl
        rcases hpf with rfl | w
        · exact R.l0 h
        · exact R.fl' w h
      rw [L.child]
      split
      · simp [upd, hxp, R.fl.child x h]
      · exact R.fl.child x h

end Verif.Proof.Tree
