import Verif.Proof.SelectorMatch
import Verif.Proof.TreeIter
import Verif.Proof.TreeRun
/-! Complex selectors and queries on the tree container. -/
namespace Verif.Proof.Selector
open Verif.Model.Selector Verif.Model.Tree Verif.Spec Verif.Spec.Forest Verif.Spec.Selector Verif.Proof.Tree

section
variable {t : T Node} {f g : Forest Node} {l : List Nat}

theorem mkIt_ne {t : T Node} {x : Nat} (h : x ≠ 0) : mkIt t x ≠ nullIt := by
  intro e
  have := congrArg It.idx e
  exact h this

theorem mkIt_inj {t : T Node} {x y : Nat} (h : mkIt t x = mkIt t y) : x = y := congrArg It.idx h

theorem ne_zero (R : Rep t f g l) {x} (hx : x ∈ ids f) : x ≠ 0 := by rintro rfl; exact R.f0 hx

theorem up_spec (R : Rep t f g l) {x} (hx : x ∈ ids f) :
    (mkIt t x).up t = some (if t.parent x = 0 then nullIt else mkIt t (t.parent x)) := by
  unfold It.up mkIt
  dsimp only
  by_cases h : t.parent x = 0
  · rw [if_pos h, if_pos h, h]; rfl
  · have hp := (R.isNode hx).1.resolve_left h
    unfold T.rd
    rw [if_neg h, if_neg h, if_pos (R.f_lt hp).2]
    rfl

theorem find_mem {f : Forest Node} {x v k} (h : find f x = some (v, k)) : (x, v) ∈ nodes f := by
  induction f with
  | nil => simp [find] at h
  | cons i w c s hc hs =>
    rw [find] at h
    split at h
    · rename_i e
      simp only [Option.some.injEq, Prod.mk.injEq] at h
      rw [nodes, e, h.1]; simp
    · rw [Option.or_eq_some_iff] at h
      rcases h with h | ⟨_, h⟩
      · simp [nodes, hc h]
      · simp [nodes, hs h]

theorem find_val (R : Rep t f g l) {x v k} (h : find f x = some (v, k)) : t.val x = v :=
  R.val (x, v) (by simp [find_mem h])

theorem deref_spec (R : Rep t f g l) {x} (hx : x ∈ ids f) : ∃ nd, valueAt f x = some nd ∧ (mkIt t x).deref t = some nd := by
  obtain ⟨v, k, h⟩ := find_some hx
  refine ⟨v, by simp [valueAt, h], ?_⟩
  unfold It.deref mkIt T.rd
  dsimp only
  rw [if_neg (ne_zero R hx), if_pos (R.f_lt hx).2, find_val R h]

theorem walkUp_null {t : T Node} {h : It → Option Bool} {n : Nat} : walkUp t h n nullIt = some false := by
  cases n <;> simp [walkUp]

theorem prevElement_first {t : T Node} {h : It → Option Bool} {n : Nat} {i : It} : prevElement t h i n i = some false := by
  cases n <;> simp [prevElement]

theorem prevElements_first {t : T Node} {h : It → Option Bool} {n : Nat} {i : It} : prevElements t h i n i = some false := by
  cases n <;> simp [prevElements]

/-- The proper ancestors of a node, from its parent. -/
theorem above_iff (R : Rep t f g l) {x} (hx : x ∈ ids f) (z : Nat) :
    x ∈ descendants f z ↔ t.parent x ≠ 0 ∧ (z = t.parent x ∨ t.parent x ∈ descendants f z) := by
  have hN := R.isNode hx
  by_cases hp : t.parent x = 0
  · have hr := hN.2
    rw [hp, children, if_pos rfl] at hr
    constructor
    · intro w; exact absurd w (root_not_descendant R.ndf hr)
    · exact fun w => absurd hp w.1
  · have hk := hN.2
    rw [children, if_neg hp] at hk
    rw [kid_descendant R.ndf hk]
    constructor
    · rintro (w | w)
      · exact ⟨hp, Or.inl w.symm⟩
      · exact ⟨hp, Or.inr w⟩
    · rintro ⟨_, w | w⟩
      · exact Or.inl w.symm
      · exact Or.inr w

theorem parent_before (R : Rep t f g l) {x} (hx : x ∈ ids f) (hp : t.parent x ≠ 0) :
    t.parent x ∈ ids f ∧ (ids f).idxOf (t.parent x) < (ids f).idxOf x := by
  have hN := R.isNode hx
  have hk := hN.2
  rw [children, if_neg hp] at hk
  exact ⟨hN.1.resolve_left hp, kid_after R.ndf hk⟩

theorem idx_lt (R : Rep t f g l) {x} (hx : x ∈ ids f) : (ids f).idxOf x < t.len := by
  have h1 := List.idxOf_lt_length_iff.mpr hx
  have h2 : (ids f).length ≤ t.len := R.fhung.size_le
  omega

theorem walkUp_spec (R : Rep t f g l) {h : It → Option Bool} {Q : Nat → Prop} (hq : ∀ y ∈ ids f, Ans (h (mkIt t y)) (Q y)) :
    ∀ (fuel y : Nat), y ∈ ids f → (ids f).idxOf y < fuel →
      Ans (walkUp t h fuel (mkIt t y)) (∃ z ∈ ids f, (z = y ∨ y ∈ descendants f z) ∧ Q z) := by
  intro fuel
  induction fuel with
  | zero => intro y _ h; omega
  | succ n ih =>
    intro y hy hf
    rw [walkUp, if_neg (mkIt_ne (ne_zero R hy))]
    obtain ⟨b, hb, hi⟩ := hq y hy
    rw [hb]
    cases b with
    | true => exact ans_true ⟨y, hy, Or.inl rfl, hi.mp rfl⟩
    | false =>
      have hnq : ¬ Q y := fun w => by simpa using hi.mpr w
      dsimp only
      rw [up_spec R hy, Option.bind_some]
      by_cases hp : t.parent y = 0
      · rw [if_pos hp, walkUp_null]
        apply ans_false
        rintro ⟨z, _, rfl | w, hz⟩
        · exact hnq hz
        · exact ((above_iff R hy z).mp w).1 hp
      · rw [if_neg hp]
        obtain ⟨h1, h2⟩ := parent_before R hy hp
        apply (ih _ h1 (by omega)).congr
        constructor
        · rintro ⟨z, hz, w, hqz⟩
          exact ⟨z, hz, Or.inr ((above_iff R hy z).mpr ⟨hp, w⟩), hqz⟩
        · rintro ⟨z, hz, rfl | w, hqz⟩
          · exact absurd hqz hnq
          · exact ⟨z, hz, ((above_iff R hy z).mp w).2, hqz⟩

theorem descendants_node {f : Forest Node} {x z : Nat} (h : x ∈ descendants f z) : z ∈ ids f := by
  unfold descendants at h
  split at h
  · simp at h
  · rename_i e he
    by_contra w
    rw [find_none w] at he; simp at he

theorem walkAbove_spec (R : Rep t f g l) {h : It → Option Bool} {Q : Nat → Prop} (hq : ∀ y ∈ ids f, Ans (h (mkIt t y)) (Q y))
    {x : Nat} (hx : x ∈ ids f) :
    Ans (((mkIt t x).up t).bind fun p => walkUp t h t.len p) (∃ z, x ∈ descendants f z ∧ Q z) := by
  rw [up_spec R hx, Option.bind_some]
  by_cases hp : t.parent x = 0
  · rw [if_pos hp, walkUp_null]
    apply ans_false
    rintro ⟨z, w, _⟩
    exact ((above_iff R hx z).mp w).1 hp
  · rw [if_neg hp]
    obtain ⟨h1, _⟩ := parent_before R hx hp
    apply (walkUp_spec R hq t.len _ h1 (idx_lt R h1)).congr
    constructor
    · rintro ⟨z, _, w, hz⟩
      exact ⟨z, (above_iff R hx z).mpr ⟨hp, w⟩, hz⟩
    · rintro ⟨z, w, hz⟩
      exact ⟨z, descendants_node w, ((above_iff R hx z).mp w).2, hz⟩

theorem deref_element (R : Rep t f g l) {x} (hx : x ∈ ids f) : ∃ nd, (mkIt t x).deref t = some nd ∧ (nd.isElement = true ↔ Element f x) := by
  obtain ⟨nd, h1, h2⟩ := deref_spec R hx
  refine ⟨nd, h2, ?_⟩
  unfold Element
  rw [h1]
  cases nd <;> simp [Node.isElement]

theorem decr_spec (R : Rep t f g l) {p} (hp : p ∈ ids f) {A B : List Nat} {y x : Nat} (e : kidsOf f p = A ++ y :: x :: B) :
    (mkIt t x).decr true t = some (mkIt t y) ∧ (mkIt t x) ≠ ⟨p, (kidsOf f p).headD 0⟩ := by
  have hp0 := ne_zero R hp
  have C := R.chain p (Or.inr hp)
  have nd := children_nodup R.ndf p
  rw [children, if_neg hp0] at C nd
  have hxm : x ∈ kidsOf f p := by rw [e]; simp
  have hym : y ∈ kidsOf f p := by rw [e]; simp
  have hx := kidsOf_sub f p x hxm
  have hx0 := ne_zero R hx
  have hpx := C.par x hxm
  have hpy := C.par y hym
  have hhead : t.child p ≠ x := by
    rw [C.head, e]
    rw [e] at nd
    cases A with
    | nil =>
      rw [List.nil_append, List.nodup_cons] at nd
      simp only [List.nil_append, List.headD_cons]
      rintro rfl; simp at nd
    | cons a A =>
      rw [List.cons_append, List.nodup_cons] at nd
      simp only [List.cons_append, List.headD_cons]
      rintro rfl; simp at nd
  have hpv : t.prev x = y := by
    have := C.pv (A ++ [y]) x B (by rw [e]; simp)
    rw [if_neg (by simp)] at this
    rw [this]; simp
  constructor
  · unfold It.decr mkIt T.rd
    dsimp only
    rw [if_pos hx0, hpx, if_pos (R.f_lt hp).2, Option.bind_some, if_neg, if_pos (R.f_lt hx).2, Option.map_some, hpv, hpy]
    simp [hp0, hhead]
  · intro w
    have := congrArg It.idx w
    rw [← C.head] at this
    exact hhead this.symm

theorem first_spec (R : Rep t f g l) {p} (hp : p ∈ ids f) : (mkIt t p).begin t = some ⟨p, (kidsOf f p).headD 0⟩ := by
  have C := R.chain p (Or.inr hp)
  rw [children, if_neg (ne_zero R hp)] at C
  unfold It.begin mkIt T.rd
  dsimp only
  rw [if_neg (ne_zero R hp), if_pos (R.f_lt hp).2, Option.map_some, C.head]

theorem at_first (R : Rep t f g l) {p} (hp : p ∈ ids f) {B : List Nat} {x : Nat} (e : kidsOf f p = x :: B) :
    mkIt t x = ⟨p, (kidsOf f p).headD 0⟩ := by
  have C := R.chain p (Or.inr hp)
  rw [children, if_neg (ne_zero R hp)] at C
  rw [mkIt, C.par x (by rw [e]; simp), e]
  rfl

theorem prevElement_spec (R : Rep t f g l) {h : It → Option Bool} {Q : Nat → Prop} (hq : ∀ y ∈ ids f, Ans (h (mkIt t y)) (Q y))
    {p} (hp : p ∈ ids f) : ∀ (fuel : Nat) (A : List Nat) (x : Nat) (B : List Nat), kidsOf f p = A ++ x :: B → A.length ≤ fuel →
      Ans (prevElement t h ⟨p, (kidsOf f p).headD 0⟩ fuel (mkIt t x))
        (∃ y A' m, A = A' ++ y :: m ∧ (∀ z ∈ m, ¬ Element f z) ∧ Element f y ∧ Q y) := by
  intro fuel A
  induction A using List.reverseRecOn generalizing fuel with
  | nil =>
    intro x B e _
    rw [at_first R hp e, prevElement_first]
    exact ans_false (by rintro ⟨y, A', m, h, _⟩; simp at h)
  | append_singleton A y ih =>
    intro x B e hl
    rw [List.append_assoc, List.singleton_append] at e
    obtain ⟨h1, h2⟩ := decr_spec R hp e
    have hy : y ∈ ids f := kidsOf_sub f p y (by rw [e]; simp)
    obtain ⟨nd, hd, he⟩ := deref_element R hy
    cases fuel with
    | zero => simp at hl
    | succ fuel =>
      rw [prevElement, if_neg h2]
      rw [h1, Option.bind_some, hd, Option.bind_some]
      by_cases hel : nd.isElement = true
      · rw [if_pos hel]
        apply (hq y hy).congr
        constructor
        · exact fun w => ⟨y, A, [], rfl, by simp, he.mp hel, w⟩
        · rintro ⟨y', A', m, e', hm, _, w⟩
          rcases List.eq_nil_or_concat m with rfl | ⟨m', z, rfl⟩
          · have := (List.append_inj' e' rfl).2
            simp only [List.cons.injEq, and_true] at this
            rw [this]; exact w
          · exfalso
            rw [List.concat_eq_append, ← List.cons_append, ← List.append_assoc] at e'
            have := (List.append_inj' e' rfl).2
            simp only [List.cons.injEq, and_true] at this
            exact hm z (by simp) (this ▸ he.mp hel)
      · rw [if_neg hel]
        have hne : ¬ Element f y := fun w => hel (he.mpr w)
        apply (ih fuel y (x :: B) e (by simp at hl; omega)).congr
        constructor
        · rintro ⟨y', A', m, e', hm, hw⟩
          refine ⟨y', A', m ++ [y], by rw [e']; simp, ?_, hw⟩
          intro z hz
          rcases List.mem_append.mp hz with hz | hz
          · exact hm z hz
          · simp only [List.mem_singleton] at hz; rw [hz]; exact hne
        · rintro ⟨y', A', m, e', hm, hw⟩
          rcases List.eq_nil_or_concat m with rfl | ⟨m', z, rfl⟩
          · exfalso
            have := (List.append_inj' e' rfl).2
            simp only [List.cons.injEq, and_true] at this
            exact hne (this ▸ hw.1)
          · rw [List.concat_eq_append, ← List.cons_append, ← List.append_assoc] at e'
            exact ⟨y', A', m', (List.append_inj' e' rfl).1, fun z hz => hm z (by simp [hz]), hw⟩

theorem prevElements_spec (R : Rep t f g l) {h : It → Option Bool} {Q : Nat → Prop} (hq : ∀ y ∈ ids f, Ans (h (mkIt t y)) (Q y))
    {p} (hp : p ∈ ids f) : ∀ (fuel : Nat) (A : List Nat) (x : Nat) (B : List Nat), kidsOf f p = A ++ x :: B → A.length ≤ fuel →
      Ans (prevElements t h ⟨p, (kidsOf f p).headD 0⟩ fuel (mkIt t x)) (∃ y ∈ A, Element f y ∧ Q y) := by
  intro fuel A
  induction A using List.reverseRecOn generalizing fuel with
  | nil =>
    intro x B e _
    rw [at_first R hp e, prevElements_first]
    exact ans_false (by simp)
  | append_singleton A y ih =>
    intro x B e hl
    rw [List.append_assoc, List.singleton_append] at e
    obtain ⟨h1, h2⟩ := decr_spec R hp e
    have hy : y ∈ ids f := kidsOf_sub f p y (by rw [e]; simp)
    obtain ⟨nd, hd, he⟩ := deref_element R hy
    cases fuel with
    | zero => simp at hl
    | succ fuel =>
      have hih := ih fuel y (x :: B) e (by simp at hl; omega)
      rw [prevElements, if_neg h2]
      rw [h1, Option.bind_some, hd, Option.bind_some]
      by_cases hel : nd.isElement = true
      · rw [if_pos hel]
        obtain ⟨b, hb, hi⟩ := hq y hy
        rw [hb]
        cases b with
        | true => exact ans_true ⟨y, by simp, he.mp hel, hi.mp rfl⟩
        | false =>
          apply hih.congr
          have hnq : ¬ Q y := fun w => by simpa using hi.mpr w
          constructor
          · rintro ⟨z, hz, w⟩; exact ⟨z, by simp [hz], w⟩
          · rintro ⟨z, hz, w⟩
            rcases List.mem_append.mp hz with hz | hz
            · exact ⟨z, hz, w⟩
            · simp only [List.mem_singleton] at hz; subst hz; exact absurd w.2 hnq
      · rw [if_neg hel]
        have hne : ¬ Element f y := fun w => hel (he.mpr w)
        apply hih.congr
        constructor
        · rintro ⟨z, hz, w⟩; exact ⟨z, by simp [hz], w⟩
        · rintro ⟨z, hz, w⟩
          rcases List.mem_append.mp hz with hz | hz
          · exact ⟨z, hz, w⟩
          · simp only [List.mem_singleton] at hz; subst hz; exact absurd w.1 hne

theorem kids_parent (R : Rep t f g l) {p x} (hp : p ∈ ids f) (h : x ∈ kidsOf f p) : t.parent x = p :=
  R.parent_eq ⟨Or.inr hp, by rw [children, if_neg (ne_zero R hp)]; exact h⟩

theorem kids_node {f : Forest Node} {p x : Nat} (h : x ∈ kidsOf f p) : p ∈ ids f := by
  by_contra w; rw [kidsOf_nil w] at h; simp at h

theorem nodup_split {x : Nat} : ∀ {A A' B B' : List Nat}, (A ++ x :: B).Nodup → A ++ x :: B = A' ++ x :: B' → A = A'
  | [], [], _, _, _, _ => rfl
  | [], a :: A', B, B', nd, e => by
    simp only [List.nil_append, List.cons_append, List.cons.injEq] at e
    rw [List.nil_append, List.nodup_cons, e.2] at nd
    exact absurd (by simp) nd.1
  | a :: A, [], B, B', nd, e => by
    simp only [List.nil_append, List.cons_append, List.cons.injEq] at e
    rw [List.cons_append, List.nodup_cons, e.1] at nd
    exact absurd (by simp) nd.1
  | a :: A, a' :: A', B, B', nd, e => by
    simp only [List.cons_append, List.cons.injEq] at e
    rw [List.cons_append, List.nodup_cons] at nd
    rw [e.1, nodup_split nd.2 e.2]

theorem relate_spec (R : Rep t f g l) {h : It → Option Bool} {Q : Nat → Prop} (hq : ∀ y ∈ ids f, Ans (h (mkIt t y)) (Q y))
    {k : Nat} (hk : k ∈ [0x20, 0x3E, 0x2B, 0x7E]) {x : Nat} (hx : x ∈ ids f) :
    Ans (relate t h k (mkIt t x)) (∃ y, Related f k y x ∧ Q y) := by
  simp only [List.mem_cons, List.not_mem_nil, or_false] at hk
  have hN := R.isNode hx
  have hkid : t.parent x ≠ 0 → x ∈ kidsOf f (t.parent x) := by
    intro hp
    have := hN.2
    rwa [children, if_neg hp] at this
  have hlen : ∀ A B : List Nat, kidsOf f (t.parent x) = A ++ x :: B → A.length ≤ t.len := by
    intro A B e
    have h1 : A.Nodup := by
      by_cases hp : t.parent x = 0
      · rw [hp, kidsOf_nil R.f0] at e; simp at e
      · have := children_nodup R.ndf (t.parent x)
        rw [children, if_neg hp, e] at this
        exact (List.nodup_append.mp this).1
    exact len_le_of_lt h1 (fun y hy => (R.f_lt (kidsOf_sub f (t.parent x) y (by rw [e]; simp [hy]))).2)
  rcases hk with rfl | rfl | rfl | rfl
  · rw [relate, if_pos rfl]
    apply (walkAbove_spec R hq hx).congr
    simp [Related]
  · rw [relate, if_neg (by decide), if_pos rfl, up_spec R hx, Option.bind_some]
    by_cases hp : t.parent x = 0
    · rw [if_pos hp, if_pos rfl]
      apply ans_false
      rintro ⟨y, hy, _⟩
      simp only [Related, Nat.reduceEqDiff, false_and, or_false, false_or, true_and] at hy
      have hyf := kids_node hy
      rw [kids_parent R hyf hy] at hp
      exact ne_zero R hyf hp
    · have hpf := (parent_before R hx hp).1
      rw [if_neg hp, if_neg (mkIt_ne hp)]
      apply (hq _ hpf).congr
      constructor
      · intro w; exact ⟨_, by simp [Related, hkid hp], w⟩
      · rintro ⟨y, hy, w⟩
        simp only [Related, Nat.reduceEqDiff, false_and, or_false, false_or, true_and] at hy
        rw [kids_parent R (kids_node hy) hy]; exact w
  · rw [relate, if_neg (by decide), if_neg (by decide), if_pos rfl, up_spec R hx, Option.bind_some]
    by_cases hp : t.parent x = 0
    · rw [if_pos hp, if_pos rfl]
      apply ans_false
      rintro ⟨y, hy, _⟩
      simp only [Related, Nat.reduceEqDiff, false_and, or_false, false_or, true_and] at hy
      obtain ⟨⟨m, ⟨p, A, B, hpf, e⟩, _⟩, _⟩ := hy
      rw [kids_parent R hpf (x := x) (by rw [e]; simp)] at hp
      exact ne_zero R hpf hp
    · have hpf := (parent_before R hx hp).1
      rw [if_neg hp, if_neg (mkIt_ne hp), first_spec R hpf, Option.bind_some]
      obtain ⟨A, B, e⟩ := List.append_of_mem (hkid hp)
      apply (prevElement_spec R hq hpf t.len A x B e (hlen A B e)).congr
      constructor
      · rintro ⟨y, A', m, rfl, hm, hy, w⟩
        refine ⟨y, ?_, w⟩
        simp only [Related, Nat.reduceEqDiff, false_and, or_false, false_or, true_and]
        exact ⟨⟨m, ⟨_, A', B, hpf, by rw [e]; simp⟩, hm⟩, hy⟩
      · rintro ⟨y, hy, w⟩
        simp only [Related, Nat.reduceEqDiff, false_and, or_false, false_or, true_and] at hy
        obtain ⟨⟨m, ⟨p, A', B', hpf', e'⟩, hm⟩, hy⟩ := hy
        have hpp := kids_parent R hpf' (x := x) (by rw [e']; simp)
        rw [hpp] at e
        have nd := children_nodup R.ndf p
        rw [children, if_neg (ne_zero R hpf'), e] at nd
        have : A = A' ++ y :: m := by
          have e2 : A ++ x :: B = (A' ++ y :: m) ++ x :: B' := by rw [← e, e']; simp
          exact nodup_split nd e2
        exact ⟨y, A', m, this, hm, hy, w⟩
  · rw [relate, if_neg (by decide), if_neg (by decide), if_neg (by decide), if_pos rfl, up_spec R hx, Option.bind_some]
    by_cases hp : t.parent x = 0
    · rw [if_pos hp, if_pos rfl]
      apply ans_false
      rintro ⟨y, hy, _⟩
      simp only [Related, Nat.reduceEqDiff, false_and, or_false, false_or, true_and] at hy
      obtain ⟨⟨m, p, A, B, hpf, e⟩, _⟩ := hy
      rw [kids_parent R hpf (x := x) (by rw [e]; simp)] at hp
      exact ne_zero R hpf hp
    · have hpf := (parent_before R hx hp).1
      rw [if_neg hp, if_neg (mkIt_ne hp), first_spec R hpf, Option.bind_some]
      obtain ⟨A, B, e⟩ := List.append_of_mem (hkid hp)
      apply (prevElements_spec R hq hpf t.len A x B e (hlen A B e)).congr
      constructor
      · rintro ⟨y, hyA, hy, w⟩
        refine ⟨y, ?_, w⟩
        simp only [Related, Nat.reduceEqDiff, false_and, or_false, false_or, true_and]
        obtain ⟨A', m, rfl⟩ := List.append_of_mem hyA
        exact ⟨⟨m, _, A', B, hpf, by rw [e]; simp⟩, hy⟩
      · rintro ⟨y, hy, w⟩
        simp only [Related, Nat.reduceEqDiff, false_and, or_false, false_or, true_and] at hy
        obtain ⟨⟨m, p, A', B', hpf', e'⟩, hy⟩ := hy
        have hpp := kids_parent R hpf' (x := x) (by rw [e']; simp)
        rw [hpp] at e
        have nd := children_nodup R.ndf p
        rw [children, if_neg (ne_zero R hpf'), e] at nd
        have : A = A' ++ y :: m := by
          have e2 : A ++ x :: B = (A' ++ y :: m) ++ x :: B' := by rw [← e, e']; simp
          exact nodup_split nd e2
        exact ⟨y, by rw [this]; simp, hy, w⟩

theorem matchItems_spec (R : Rep t f g l) {c : Ctx} (k : Known c) (hf : CleanTree (docOf c) f) :
    ∀ {s : Complex}, CleanSel (docOf c) f s → ∀ x ∈ ids f, Ans (matchItems t c s.items.reverse (mkIt t x)) (Selects (docOf c) f s x) := by
  intro s
  induction s with
  | single cs =>
    intro hs x hx
    obtain ⟨nd, hv, hd⟩ := deref_spec R hx
    rw [Complex.items, List.reverse_singleton, matchItems, hd, Option.bind_some]
    obtain ⟨b, hb, hi⟩ := matchCompound_iff k hf hv hs.1 hs.2
    rw [hb]
    cases b with
    | false => exact ans_false (fun w => by simpa using hi.mpr w)
    | true => exact ans_true (hi.mp rfl)
  | step p n cs ih =>
    intro hs x hx
    obtain ⟨nd, hv, hd⟩ := deref_spec R hx
    have e : (Complex.step p n cs).items.reverse = .comp cs :: .comb n :: p.items.reverse := by simp [Complex.items]
    rw [e, matchItems, hd, Option.bind_some]
    obtain ⟨b, hb, hi⟩ := matchCompound_iff k hf hv hs.2.2.1 hs.2.2.2
    rw [hb]
    cases b with
    | false => exact ans_false (fun w => by simpa using hi.mpr w.1)
    | true =>
      dsimp only
      apply (relate_spec R (Q := Selects (docOf c) f p) (ih hs.1) hs.2.1 hx).congr
      rw [Selects]
      exact ⟨fun w => ⟨hi.mp rfl, w⟩, fun w => w.2⟩

theorem matchList_spec (R : Rep t f g l) {c : Ctx} (k : Known c) (hf : CleanTree (docOf c) f) {xs : List Complex}
    (hs : ∀ s ∈ xs, CleanSel (docOf c) f s) {x : Nat} (hx : x ∈ ids f) :
    Ans (matchList t c (xs.map Complex.items) (mkIt t x)) (∃ s ∈ xs, Selects (docOf c) f s x) := by
  rw [matchList, if_neg (by rw [k.2]; simp)]
  induction xs with
  | nil => exact ans_false (by simp)
  | cons s xs ih =>
    rw [List.map_cons, matchAny]
    obtain ⟨b, hb, hi⟩ := matchItems_spec R k hf (hs s (by simp)) x hx
    rw [hb]
    cases b with
    | true => exact ans_true ⟨s, by simp, hi.mp rfl⟩
    | false =>
      dsimp only
      apply (ih (fun s' h' => hs s' (by simp [h']))).congr
      have : ¬ Selects (docOf c) f s x := fun w => by simpa using hi.mpr w
      simp [this]

end
end Verif.Proof.Selector
