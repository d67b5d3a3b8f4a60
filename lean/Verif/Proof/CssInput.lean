import Verif.Model.CssInput
import Verif.Spec.CssInput
namespace Verif.Proof.CssInput
open Verif.Model.CssInput Verif.Model.Infra Verif.Spec.CssInput

theorem filter_cr_other (d : Nat) (s : List Nat) (h : d ≠ 10) : filter (13 :: d :: s) = 10 :: filter (d :: s) := by
  rw [filter.eq_def]
  split
  · simp_all
  · simp_all
  · rename_i c t _ e
    simp only [List.cons.injEq] at e
    obtain ⟨rfl, rfl⟩ := e
    simp

theorem filter_other (c : Nat) (s : List Nat) (h : c ≠ 13) : filter (c :: s) =
    (if c = 12 then 10 else if c = 0 ∨ (0xD800 ≤ c ∧ c ≤ 0xDFFF) then 0xFFFD else c) :: filter s := by
  rw [filter.eq_def]
  split
  · simp_all
  · simp_all
  · rename_i c t _ e
    simp only [List.cons.injEq] at e
    obtain ⟨rfl, rfl⟩ := e
    simp [h]

theorem filter_cr_nil : filter [13] = [10] := by simp [filter]

/-- While `done` has been written and `rest` is still to be read, with `gap` already consumed in between, the loop ends
with `done ++ filter rest` at the front. -/
theorem filterLoop_spec (rest gap done : List Nat) :
    ∃ buf w, filterLoop rest.length (done ++ gap ++ rest) (done.length + gap.length) done.length = some (buf, w) ∧
      buf.length = (done ++ gap ++ rest).length ∧ buf.take w = done ++ filter rest ∧ w = (done ++ filter rest).length := by
  induction rest generalizing gap done with
  | nil => exact ⟨_, _, rfl, rfl, by simp [filter], by simp [filter]⟩
  | cons c rest ih =>
    have hget : (done ++ gap ++ c :: rest)[done.length + gap.length]? = some c := by
      rw [List.getElem?_append_right (by simp)]; simp
    have hget1 : (done ++ gap ++ c :: rest)[done.length + gap.length + 1]? = rest[0]? := by
      rw [List.getElem?_append_right (by simp)]
      simp only [List.length_append]
      rw [show done.length + gap.length + 1 - (done.length + gap.length) = 1 by omega]; simp
    have put : ∀ x t, x :: t = filter (c :: rest) → t = filter rest →
        ∃ buf w, (if done.length < (done ++ gap ++ c :: rest).length then
          filterLoop rest.length ((done ++ gap ++ c :: rest).set done.length x) (done.length + gap.length + 1)
            (done.length + 1) else none) = some (buf, w) ∧
          buf.length = (done ++ gap ++ c :: rest).length ∧ buf.take w = done ++ filter (c :: rest) ∧
          w = (done ++ filter (c :: rest)).length := by
      intro x t hx ht
      rw [if_pos (by simp; omega), ← hx, ht]
      have hset : ∃ gap', (done ++ gap ++ c :: rest).set done.length x = done ++ [x] ++ gap' ++ rest ∧
          gap'.length = gap.length := by
        cases gap with
        | nil => exact ⟨[], by simp, rfl⟩
        | cons g gap => exact ⟨gap ++ [c], by simp, by simp⟩
      obtain ⟨gap', e, el⟩ := hset
      obtain ⟨buf, w, a, b, c1, d⟩ := ih gap' (done ++ [x])
      refine ⟨buf, w, ?_, ?_, by simpa using c1, by simpa using d⟩
      · rw [e]
        rw [← a]
        congr 1
        · simp; omega
        · simp
      · rw [b]; simp; omega
    simp only [List.length_cons, filterLoop, hget]
    by_cases h : c = 0x0D
    · subst h
      simp only [if_true]
      cases rest with
      | nil =>
        simp only [List.length_nil, ne_eq, not_true_eq_false, if_false]
        exact put 10 [] (by simp [filter]) (by simp [filter])
      | cons d rest =>
        simp only [List.length_cons, ne_eq, Nat.add_eq_zero_iff, Nat.one_ne_zero, and_false, not_false_eq_true, if_true, hget1,
          List.getElem?_cons_zero]
        by_cases hd : d = 0x0A
        · subst hd
          simp only [if_true]
          obtain ⟨buf, w, a, b, c1, e⟩ := ih (gap ++ [13]) done
          refine ⟨buf, w, ?_, by rw [b]; simp, ?_, ?_⟩
          · rw [← a]; congr 1 <;> simp [Nat.add_assoc]
          · rw [c1, filter_other 10 rest (by decide)]; simp [filter]
          · rw [e, filter_other 10 rest (by decide)]; simp [filter]
        · rw [if_neg hd]
          exact put 10 _ (filter_cr_other d rest hd).symm rfl
    · rw [if_neg h]
      by_cases h2 : c = 0x0C
      · rw [if_pos h2]; exact put _ _ (by rw [filter_other c rest h, if_pos h2]) rfl
      · rw [if_neg h2]
        by_cases h3 : c = 0
        · rw [if_pos h3]; exact put _ _ (by rw [filter_other c rest h, if_neg h2, if_pos (Or.inl h3)]) rfl
        · rw [if_neg h3]
          refine put _ _ ?_ rfl
          rw [filter_other c rest h, if_neg h2]
          simp [isSurrogate, h3]

end Verif.Proof.CssInput
