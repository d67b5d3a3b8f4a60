import Verif.Model.StaticVector
import Verif.Spec.ListOps
namespace Verif.Proof.StaticVector
open Verif.Model.StaticVector Verif.Spec.ListOps
variable {α : Type}

def Inv (N : Nat) (v : SV α) : Prop := v.store.length = N ∧ v.size ≤ N

def abs (v : SV α) : List α := v.store.take v.size

theorem copyBackward_spec (n first d : Nat) (st : List α) (h1 : first ≤ d) (h2 : d + n ≤ st.length) :
    ∃ st', copyBackward n first d st = some st' ∧ st'.length = st.length ∧
      ∀ j, st'[j]? = if d ≤ j ∧ j < d + n then st[first + (j - d)]? else st[j]? := by
  induction n generalizing st with
  | zero => exact ⟨st, rfl, rfl, fun j => by rw [if_neg (by omega)]⟩
  | succ n ih =>
    have hx : first + n < st.length := by omega
    simp only [copyBackward, List.getElem?_eq_getElem hx, write, if_pos (show d + n < st.length by omega),
      Option.bind_some]
    obtain ⟨st', e, hl, hj⟩ := ih (st.set (d + n) st[first + n]) (by simp; omega)
    refine ⟨st', e, by simpa using hl, fun j => ?_⟩
    rw [hj]
    by_cases hlt : d ≤ j ∧ j < d + n
    · rw [if_pos hlt, if_pos (by omega), List.getElem?_set_ne (by omega)]
    · rw [if_neg hlt]
      by_cases hjn : j = d + n
      · subst hjn
        rw [if_pos (by omega), List.getElem?_set_self (by omega)]
        simp [show first + (d + n - d) = first + n by omega, hx]
      · rw [List.getElem?_set_ne (by omega), if_neg (by omega)]

theorem copyForward_spec (n first d : Nat) (st : List α) (h1 : d ≤ first) (h2 : first + n ≤ st.length) :
    ∃ st', copyForward n first d st = some st' ∧ st'.length = st.length ∧
      ∀ j, st'[j]? = if d ≤ j ∧ j < d + n then st[first + (j - d)]? else st[j]? := by
  induction n generalizing st first d with
  | zero => exact ⟨st, rfl, rfl, fun j => by rw [if_neg (by omega)]⟩
  | succ n ih =>
    have hx : first < st.length := by omega
    simp only [copyForward, List.getElem?_eq_getElem hx, write, if_pos (show d < st.length by omega), Option.bind_some]
    obtain ⟨st', e, hl, hj⟩ := ih (first + 1) (d + 1) (st.set d st[first]) (by omega) (by simp; omega)
    refine ⟨st', e, by simpa using hl, fun j => ?_⟩
    rw [hj]
    by_cases hlt : d + 1 ≤ j ∧ j < d + 1 + n
    · rw [if_pos hlt, if_pos (by omega), List.getElem?_set_ne (by omega)]
      congr 1; omega
    · rw [if_neg hlt]
      by_cases hjn : j = d
      · subst hjn
        rw [if_pos (by omega), List.getElem?_set_self (by omega)]
        simp [hx]
      · rw [List.getElem?_set_ne (by omega), if_neg (by omega)]

theorem writeAll_spec (xs : List α) (p : Nat) (st : List α) (h : p + xs.length ≤ st.length) :
    ∃ st', writeAll xs p st = some st' ∧ st'.length = st.length ∧
      ∀ j, st'[j]? = if p ≤ j ∧ j < p + xs.length then xs[j - p]? else st[j]? := by
  induction xs generalizing p st with
  | nil => exact ⟨st, rfl, rfl, fun j => by rw [if_neg (by simp)]⟩
  | cons x xs ih =>
    simp only [List.length_cons] at h
    simp only [writeAll, write, if_pos (show p < st.length by omega), Option.bind_some]
    obtain ⟨st', e, hl, hj⟩ := ih (p + 1) (st.set p x) (by simp; omega)
    refine ⟨st', e, by simpa using hl, fun j => ?_⟩
    rw [hj]
    simp only [List.length_cons]
    by_cases hlt : p + 1 ≤ j ∧ j < p + 1 + xs.length
    · rw [if_pos hlt, if_pos (by omega), show j - p = (j - (p + 1)) + 1 by omega, List.getElem?_cons_succ]
    · rw [if_neg hlt]
      by_cases hjn : j = p
      · subst hjn
        rw [if_pos (by omega), List.getElem?_set_self (by omega)]; simp
      · rw [List.getElem?_set_ne (by omega), if_neg (by omega)]

theorem abs_get (v : SV α) (j : Nat) : (abs v)[j]? = if j < v.size then v.store[j]? else none := by
  unfold abs; rw [List.getElem?_take]

theorem abs_length {N : Nat} {v : SV α} (h : Inv N v) : (abs v).length = v.size := by
  unfold abs; rw [List.length_take, h.1]; have := h.2; omega

theorem insertAll_ok {N : Nat} {v : SV α} (hi : Inv N v) (pos : Nat) (xs : List α) (hp : pos ≤ v.size)
    (hc : v.size + xs.length ≤ N) :
    ∃ v', insertAll v pos xs = some v' ∧ Inv N v' ∧ abs v' = (abs v).take pos ++ xs ++ (abs v).drop pos := by
  obtain ⟨h1, h2⟩ := hi
  obtain ⟨st1, e1, l1, g1⟩ := copyBackward_spec (v.size - pos) pos (pos + xs.length) v.store (by omega) (by omega)
  obtain ⟨st2, e2, l2, g2⟩ := writeAll_spec xs pos st1 (by omega)
  refine ⟨⟨st2, v.size + xs.length⟩, ?_, ⟨by simp; omega, by simpa using hc⟩, ?_⟩
  · simp only [insertAll, h1, hc, if_true, e1, Option.bind_some, e2, Option.map_some]
  · apply List.ext_getElem?
    intro j
    have hal : (abs v).length = v.size := abs_length ⟨h1, h2⟩
    rw [abs_get]
    simp only [List.getElem?_append, List.length_append, List.length_take, hal, Nat.min_eq_left hp, g2, g1]
    by_cases ha : j < pos
    · rw [if_pos (by omega), if_neg (by omega), if_neg (by omega), if_pos (by omega), if_pos ha,
        List.getElem?_take, if_pos ha, abs_get, if_pos (by omega)]
    · by_cases hb : j < pos + xs.length
      · rw [if_pos (by omega), if_pos (by omega), if_pos (by omega), if_neg ha]
      · rw [if_neg hb, List.getElem?_drop, abs_get]
        by_cases hd : j < v.size + xs.length
        · rw [if_pos hd, if_neg (by omega), if_pos (by omega), if_pos (by omega)]
        · rw [if_neg hd, if_neg (by omega)]

theorem insertOne_eq_insertAll (v : SV α) (pos : Nat) (x : α) : insertOne v pos x = insertAll v pos [x] := by
  unfold insertOne insertAll
  by_cases h : v.size < v.store.length
  · rw [if_pos h, if_pos (by simp; omega)]
    congr 1
    funext st
    simp only [writeAll]
    cases write st pos x <;> rfl
  · rw [if_neg h, if_neg (by simp; omega)]

theorem eraseRange_ok {N : Nat} {v : SV α} (hi : Inv N v) (first last : Nat) (h1 : first < v.size)
    (h2 : first ≤ last) (h3 : last ≤ v.size) :
    ∃ v', eraseRange v first last = some v' ∧ Inv N v' ∧ abs v' = (abs v).take first ++ (abs v).drop last := by
  obtain ⟨i1, i2⟩ := hi
  obtain ⟨st, e, l, g⟩ := copyForward_spec (v.size - last) last first v.store h2 (by omega)
  refine ⟨⟨st, v.size - (last - first)⟩, ?_, ⟨by simp; omega, by simp; omega⟩, ?_⟩
  · simp only [eraseRange, e, Option.map_some]
    rw [if_neg (by omega)]
  · apply List.ext_getElem?
    intro j
    have hal : (abs v).length = v.size := abs_length ⟨i1, i2⟩
    rw [abs_get]
    simp only [List.getElem?_append, List.length_take, hal, Nat.min_eq_left (Nat.le_of_lt h1), g]
    by_cases ha : j < first
    · rw [if_pos (by omega), if_neg (by omega), if_pos ha, List.getElem?_take, if_pos ha, abs_get, if_pos (by omega)]
    · rw [if_neg ha, List.getElem?_drop, abs_get]
      by_cases hb : j < v.size - (last - first)
      · rw [if_pos hb, if_pos (by omega), if_pos (by omega)]
      · rw [if_neg hb, if_neg (by omega)]

theorem erase_eq_eraseRange {N : Nat} {v : SV α} (_ : Inv N v) (pos : Nat) (hp : pos < v.size) :
    erase v pos = eraseRange v pos (pos + 1) := by
  unfold erase eraseRange
  rw [if_neg (by omega), if_neg (by omega)]
  congr 2; simp

theorem assign_ok {N : Nat} {v : SV α} (hi : Inv N v) (xs : List α) (hc : xs.length ≤ N) :
    ∃ v', assign v xs = some v' ∧ Inv N v' ∧ abs v' = xs := by
  obtain ⟨i1, i2⟩ := hi
  obtain ⟨st, e, l, g⟩ := writeAll_spec xs 0 v.store (by omega)
  refine ⟨⟨st, xs.length⟩, ?_, ⟨by simp; omega, hc⟩, ?_⟩
  · simp only [assign, i1, hc, if_true, e, Option.map_some]
  · apply List.ext_getElem?
    intro j
    rw [abs_get]
    simp only [g]
    by_cases hj : j < xs.length
    · rw [if_pos hj, if_pos (by omega)]; simp
    · rw [if_neg hj, List.getElem?_eq_none (by omega)]

theorem pushBack_eq {v : SV α} (x : α) : pushBack v x = insertAll v v.size [x] := by
  unfold pushBack insertAll
  by_cases h : v.size < v.store.length
  · rw [if_pos h, if_pos (by simp; omega)]
    simp only [Nat.sub_self, copyBackward, Option.bind_some, writeAll]
    cases write v.store v.size x <;> rfl
  · rw [if_neg h, if_neg (by simp; omega)]

end Verif.Proof.StaticVector
