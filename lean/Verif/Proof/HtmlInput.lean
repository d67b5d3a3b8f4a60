import Verif.Spec.HtmlInput
import Verif.Props.Infra
namespace Verif.Proof.HtmlInput
open Verif.Model.HtmlInput Verif.Model.Infra Verif.Spec.Infra Verif.Spec.HtmlInput

theorem delivered_append (a b : List Event) : delivered (a ++ b) = delivered a ++ delivered b := by
  induction a with
  | nil => rfl
  | cons e a ih => cases e <;> simp [delivered, ih]

theorem push_delivered (cr : Bool) (cp : Nat) : delivered (pushCodePoint cr cp).2 =
    if cr then (if cp = 13 ∨ cp = 10 then [10] else [10, cp]) else (if cp = 13 then [] else [cp]) := by
  unfold pushCodePoint
  cases cr <;> simp only [if_true, Bool.false_eq_true, if_false]
  · by_cases h : cp = 13 <;> simp only [h, if_true, if_false] <;> simp only [delivered_append] <;>
      (repeat' split) <;> simp [delivered]
  · by_cases h : cp = 13
    · simp only [h, if_true, true_or]; simp only [delivered_append]; (repeat' split) <;> simp [delivered]
    · by_cases h2 : cp = 10
      · simp only [h2, if_true, or_true, if_neg (show ¬ (10 = 13) by decide)]
        simp only [delivered_append]; (repeat' split) <;> simp [delivered]
      · simp only [h, h2, if_false, or_self]
        simp only [delivered_append]; (repeat' split) <;> simp [delivered]

theorem push_state (cr : Bool) (cp : Nat) : (pushCodePoint cr cp).1 = decide (cp = 13) := by
  unfold pushCodePoint
  cases cr <;> simp only [if_true, Bool.false_eq_true, if_false] <;> (repeat' split) <;> simp_all

theorem normNL_cr_cons (c : Nat) (s : List Nat) (h : c ≠ 10) : normNL (13 :: c :: s) = 10 :: normNL (c :: s) := by
  rw [normNL.eq_def]
  split <;> simp_all

theorem normNL_other (c : Nat) (s : List Nat) (h : c ≠ 13) : normNL (c :: s) = c :: normNL s := by
  rw [normNL.eq_def]
  split <;> simp_all

theorem errors_append (a b : List Event) : errors (a ++ b) = errors a ++ errors b := by
  induction a with
  | nil => rfl
  | cons e a ih => cases e <;> simp [errors, ih]

theorem nonchar_iff (c : Nat) : isNoncharacter c = true ↔ IsNonchar c := by
  unfold isNoncharacter IsNonchar
  simp only [Bool.and_eq_true, decide_eq_true_eq, List.contains_iff_mem]
  split
  · rename_i h; simp; omega
  · rename_i h
    simp
    omega

theorem ws_iff (c : Nat) : isAsciiWhiteSpace c = true ↔ IsWs c := by
  unfold isAsciiWhiteSpace IsWs
  simp [or_assoc]

theorem push_errors (cr : Bool) (cp : Nat) : errors (pushCodePoint cr cp).2 =
    (if isSurrogate cp then [.surrogate] else []) ++ (if isNoncharacter cp then [.noncharacter] else []) ++
    (if !(isAsciiWhiteSpace cp || cp == 0) && isControl cp then [.control] else []) := by
  have key : ∀ (a b d : Bool) (es : List Event), errors es = [] →
      errors (((if a then [Event.error .surrogate] else []) ++ (if b then [Event.error .noncharacter] else []) ++
        (if d then [Event.error .control] else [])) ++ es) =
      (if a then [Err.surrogate] else []) ++ (if b then [.noncharacter] else []) ++ (if d then [.control] else []) := by
    intro a b d es h
    rw [errors_append, h]
    cases a <;> cases b <;> cases d <;> rfl
  unfold pushCodePoint
  cases cr <;> simp only [if_true, Bool.false_eq_true, if_false]
  · by_cases h : cp = 13
    · simp only [if_pos h]; rw [← key _ _ _ [] rfl, List.append_nil]
    · simp only [h, if_false]; exact key _ _ _ _ rfl
  · by_cases h : cp = 13
    · simp only [h, if_true]; exact key _ _ _ _ rfl
    · by_cases h2 : cp = 10
      · simp only [h2, if_true, if_neg (show ¬ (10 = 13) by decide)]; exact key _ _ _ _ rfl
      · simp only [h, h2, if_false]; exact key _ _ _ _ rfl

theorem foldCase_eq (ci : Bool) (c : Nat) : foldCase ci c = if ci then lower c else c := by
  unfold foldCase lower isAsciiUpperAlpha
  cases ci <;> simp

theorem matchLoop_iff (ci : Bool) (label cs : List Nat) :
    matchLoop ci label cs = true ↔ label <+: cs.map fun c => if ci then lower c else c := by
  induction label generalizing cs with
  | nil => simp [matchLoop]
  | cons l ls ih =>
    cases cs with
    | nil => simp [matchLoop]
    | cons c cs =>
      simp only [matchLoop, foldCase_eq, List.map_cons]
      by_cases h : (if ci then lower c else c) = l
      · rw [if_neg (by simpa using h), ih, h]; simp
      · rw [if_pos (by simpa using h)]
        simp only [Bool.false_eq_true, false_iff]
        intro hp
        have := List.cons_prefix_cons.mp hp
        exact h this.1.symm

end Verif.Proof.HtmlInput
