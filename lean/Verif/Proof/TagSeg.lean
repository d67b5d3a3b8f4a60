import Mathlib.Data.List.Basic
import Mathlib.Data.List.Perm.Basic
import Mathlib.Data.List.Nodup
import Mathlib.Tactic.Tauto

/-! Doubly linked segments: `Seg nx pv x w y` says that `x`, the elements of `w` and `y` are linked in this order. -/
namespace Verif.Proof.TagTree

def Seg (nx pv : Nat → Nat) : Nat → List Nat → Nat → Prop
  | x, [], y => nx x = y ∧ pv y = x
  | x, a :: w, y => nx x = a ∧ pv a = x ∧ Seg nx pv a w y

/-- Links inside `B` and from there to `y`. -/
def Rest (nx pv : Nat → Nat) : List Nat → Nat → Prop
  | [], _ => True
  | b :: B, y => Seg nx pv b B y

def hd : List Nat → Nat → Nat
  | [], y => y
  | b :: _, _ => b

def lst : Nat → List Nat → Nat
  | x, [] => x
  | _, a :: w => lst a w

variable {nx pv nx' pv' : Nat → Nat}

theorem lst_mem (x : Nat) (w : List Nat) : lst x w ∈ x :: w := by
  induction w generalizing x with
  | nil => simp [lst]
  | cons a w ih => rw [lst]; exact List.mem_cons_of_mem _ (ih a)

theorem lst_append (x : Nat) (u v : List Nat) : lst x (u ++ v) = lst (lst x u) v := by
  induction u generalizing x with
  | nil => rfl
  | cons a u ih => simp only [List.cons_append, lst]; exact ih a

theorem hd_mem {B : List Nat} {y : Nat} : hd B y = y ∨ hd B y ∈ B := by
  cases B with
  | nil => exact Or.inl rfl
  | cons b B => exact Or.inr (by simp [hd])

theorem Seg.next {x w y} (S : Seg nx pv x w y) : nx x = hd w y := by
  cases w with
  | nil => exact S.1
  | cons a w => exact S.1

theorem Seg.prev {x w y} (S : Seg nx pv x w y) : pv y = lst x w := by
  induction w generalizing x with
  | nil => exact S.2
  | cons a w ih => exact ih S.2.2

theorem seg_split {x A B y} : Seg nx pv x (A ++ B) y ↔ Seg nx pv x A (hd B y) ∧ Rest nx pv B y := by
  induction A generalizing x with
  | nil =>
    cases B with
    | nil => simp [Seg, Rest, hd]
    | cons b B => simp [Seg, Rest, hd, and_assoc]
  | cons a A ih => simp only [List.cons_append, Seg, ih, and_assoc]

theorem seg_mid {x A a B y} : Seg nx pv x (A ++ a :: B) y ↔ Seg nx pv x A a ∧ Seg nx pv a B y := seg_split

theorem Seg.congr {x w y} (S : Seg nx pv x w y) (h1 : ∀ i ∈ x :: w, nx' i = nx i) (h2 : ∀ i ∈ y :: w, pv' i = pv i) :
    Seg nx' pv' x w y := by
  induction w generalizing x with
  | nil => exact ⟨(h1 x (by simp)).trans S.1, (h2 y (by simp)).trans S.2⟩
  | cons a w ih =>
    refine ⟨(h1 x (by simp)).trans S.1, (h2 a (by simp)).trans S.2.1, ih S.2.2 ?_ ?_⟩
    · intro i hi; exact h1 i (by simp at hi ⊢; tauto)
    · intro i hi; exact h2 i (by simp at hi ⊢; tauto)

theorem Rest.congr {B y} (S : Rest nx pv B y) (h1 : ∀ i ∈ B, nx' i = nx i) (h2 : ∀ i ∈ B.tail, pv' i = pv i)
    (h3 : B ≠ [] → pv' y = pv y) : Rest nx' pv' B y := by
  cases B with
  | nil => trivial
  | cons b B =>
    refine Seg.congr S h1 ?_
    intro i hi
    rcases List.mem_cons.mp hi with rfl | hi
    · exact h3 (by simp)
    · exact h2 i hi

/-- Let the segment end elsewhere. -/
theorem Seg.retarget {x u y n} (S : Seg nx pv x u y) (nd : (x :: u).Nodup)
    (h1 : ∀ i ∈ x :: u, i ≠ lst x u → nx' i = nx i) (h2 : nx' (lst x u) = n) (h3 : ∀ i ∈ u, pv' i = pv i)
    (h4 : pv' n = lst x u) : Seg nx' pv' x u n := by
  induction u generalizing x with
  | nil => exact ⟨h2, h4⟩
  | cons a u ih =>
    obtain ⟨hx, nd'⟩ := List.nodup_cons.mp nd
    have hxl : x ≠ lst x (a :: u) := fun e => hx (by rw [e]; exact lst_mem a u)
    refine ⟨(h1 x (by simp) hxl).trans S.1, (h3 a (by simp)).trans S.2.1, ih S.2.2 nd' ?_ h2 ?_ h4⟩
    · intro i hi; exact h1 i (by simp at hi ⊢; tauto)
    · intro i hi; exact h3 i (by simp at hi ⊢; tauto)

end Verif.Proof.TagTree
