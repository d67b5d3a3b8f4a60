import Mathlib.Tactic.Positivity
import Mathlib.Tactic.Ring
import Verif.Model.Serialize
import Verif.Spec.Bytes
import Verif.Proof.Bits
namespace Verif.Proof.Serialize
open Verif.Model.Serialize Verif.Spec Verif.Proof

theorem and_ff (x : Nat) : x &&& 0xFF = x % 256 := and_low 8 x 0xFF (by decide)

theorem shr8 (n k : Nat) : n >>> (k * 8) = n / 256 ^ k := by
  rw [Nat.shiftRight_eq_div_pow, Nat.mul_comm, Nat.pow_mul]

theorem pow8 (w : Nat) : 2 ^ (8 * w) = 256 ^ w := by rw [Nat.pow_mul]

theorem serialize_succ (w n : Nat) : serialize (w + 1) n = n / 256 ^ w % 256 :: serialize w n := by
  unfold serialize
  rw [List.range_succ_eq_map, List.map_cons, List.map_map]
  congr 1
  · rw [and_ff, show w + 1 - 0 - 1 = w by omega, shr8]
  · apply List.map_congr_left
    intro i _
    simp only [Function.comp]
    congr 2
    simp only [Nat.succ_eq_add_one]; congr 1; omega

theorem serialize_length (w n : Nat) : (serialize w n).length = w := by simp [serialize]

theorem serialize_bytes (w n : Nat) : IsBytes (serialize w n) := by
  intro b hb
  simp only [serialize, List.mem_map] at hb
  obtain ⟨i, _, rfl⟩ := hb
  rw [and_ff]; omega

theorem beValue_serialize (w n : Nat) : beValue (serialize w n) = n % 256 ^ w := by
  induction w with
  | zero => simp [serialize, beValue, Nat.mod_one]
  | succ w ih =>
    rw [serialize_succ, beValue, ih, serialize_length, Nat.pow_succ, Nat.mod_mul]
    ring

theorem beValue_lt (s : List Nat) (h : IsBytes s) : beValue s < 256 ^ s.length := by
  induction s with
  | nil => simp [beValue]
  | cons b s ih =>
    have h1 := ih (fun x hx => h x (by simp [hx]))
    have hb := h b (by simp)
    simp only [beValue, List.length_cons, Nat.pow_succ]
    have : b * 256 ^ s.length ≤ 255 * 256 ^ s.length := Nat.mul_le_mul_right _ (by omega)
    omega

theorem beValue_inj (s t : List Nat) (hs : IsBytes s) (ht : IsBytes t) (hl : s.length = t.length)
    (h : beValue s = beValue t) : s = t := by
  induction s generalizing t with
  | nil => cases t with
    | nil => rfl
    | cons _ _ => simp at hl
  | cons a s ih => cases t with
    | nil => simp at hl
    | cons b t =>
      simp only [List.length_cons, Nat.add_right_cancel_iff] at hl
      have hs' : IsBytes s := fun x hx => hs x (by simp [hx])
      have ht' : IsBytes t := fun x hx => ht x (by simp [hx])
      simp only [beValue, hl] at h
      have l1 := beValue_lt s hs'; have l2 := beValue_lt t ht'
      rw [hl] at l1
      have e1 : a = b := by
        have h1 : (a * 256 ^ t.length + beValue s) / 256 ^ t.length = a := by
          rw [Nat.mul_comm, Nat.mul_add_div (by positivity), Nat.div_eq_of_lt l1]; simp
        have h2 : (b * 256 ^ t.length + beValue t) / 256 ^ t.length = b := by
          rw [Nat.mul_comm, Nat.mul_add_div (by positivity), Nat.div_eq_of_lt l2]; simp
        rw [← h1, ← h2, h]
      subst e1
      rw [ih t hs' ht' hl (by omega)]

theorem deserializeLoop_eq (w : Nat) (bs rest : List Nat) (buf : Nat) (hb : buf < 2 ^ (8 * w)) :
    deserializeLoop w bs.length buf (bs ++ rest)
      = ((buf * 256 ^ bs.length + beValue bs) % 2 ^ (8 * w), rest) := by
  induction bs generalizing buf with
  | nil => simp [deserializeLoop, beValue, Nat.mod_eq_of_lt hb]
  | cons b bs ih =>
    simp only [List.length_cons, List.cons_append, deserializeLoop]
    rw [ih _ (Nat.mod_lt _ (by positivity))]
    congr 1
    rw [Nat.shiftLeft_eq, beValue, Nat.add_mod, Nat.mul_mod, Nat.mod_mod, ← Nat.mul_mod, ← Nat.add_mod]
    congr 1
    ring

theorem deserDeref_eq (w : Nat) (bs rest : List Nat) (v : Nat) (hv : v < 2 ^ (8 * w)) :
    deserDeref w bs.length v (bs ++ rest) = some ((v * 256 ^ bs.length + beValue bs) % 2 ^ (8 * w)) := by
  induction bs generalizing v with
  | nil => simp [deserDeref, beValue, Nat.mod_eq_of_lt hv]
  | cons b bs ih =>
    simp only [List.length_cons, List.cons_append, deserDeref]
    rw [ih _ (Nat.mod_lt _ (by positivity))]
    congr 1
    rw [Nat.shiftLeft_eq, beValue, Nat.add_mod, Nat.mul_mod, Nat.mod_mod, ← Nat.mul_mod, ← Nat.add_mod]
    congr 1
    ring

/-- Lexicographic order agrees with the numeric one on equal lengths. -/
theorem lexLt_iff (s t : List Nat) (hs : IsBytes s) (ht : IsBytes t) (hl : s.length = t.length) :
    lexLt s t ↔ beValue s < beValue t := by
  induction s generalizing t with
  | nil => cases t with
    | nil => simp [lexLt]
    | cons _ _ => simp at hl
  | cons a s ih => cases t with
    | nil => simp at hl
    | cons b t =>
      simp only [List.length_cons, Nat.add_right_cancel_iff] at hl
      have hs' : IsBytes s := fun x hx => hs x (by simp [hx])
      have ht' : IsBytes t := fun x hx => ht x (by simp [hx])
      have l1 := beValue_lt s hs'; have l2 := beValue_lt t ht'
      simp only [lexLt, beValue, hl, ih t hs' ht' hl]
      rw [hl] at l1
      generalize 256 ^ t.length = P at *
      rcases Nat.lt_trichotomy a b with h | h | h
      · have : (a + 1) * P ≤ b * P := Nat.mul_le_mul_right _ h
        rw [Nat.add_mul] at this
        constructor
        · intro _; omega
        · intro _; exact Or.inl h
      · subst h; omega
      · have : (b + 1) * P ≤ a * P := Nat.mul_le_mul_right _ h
        rw [Nat.add_mul] at this
        constructor
        · rintro (h1 | ⟨h1, _⟩) <;> omega
        · intro _; omega

/-- One item of a serialize_iterator range. -/
theorem run_item (w x : Nat) (l : List Nat) (hw : 0 < w) (hd : w ∣ 2 ^ 32) :
    ∀ (k fuel idx : Nat), k ≤ w → 0 < k → idx % w = w - k →
      SerIt.run w (fuel + k) ⟨x :: l, idx⟩
        = (SerIt.run w fuel ⟨l, (idx + k) % 2 ^ 32⟩).map (serialize k x ++ ·) := by
  intro k
  induction k with
  | zero => omega
  | succ k ih =>
    intro fuel idx hk _ hi
    rw [show fuel + (k + 1) = (fuel + k) + 1 by omega, SerIt.run]
    have hne : SerIt.neEnd w ⟨x :: l, idx⟩ = true := by simp [SerIt.neEnd]
    simp only [hne, if_true, SerIt.deref, and_ff]
    have hmod : (idx + 1) % 2 ^ 32 % w = (idx + 1) % w := Nat.mod_mod_of_dvd _ hd
    have hb : (x >>> ((w - 1 - idx % w) * 8)) = x / 256 ^ k := by
      rw [hi, show w - 1 - (w - (k + 1)) = k by omega, shr8]
    rw [hb, serialize_succ]
    by_cases hk0 : k = 0
    · subst hk0
      have h0 : (idx + 1) % w = 0 := by
        rw [Nat.add_mod, hi]
        by_cases h1 : w = 1
        · subst h1; simp [Nat.mod_one]
        · rw [Nat.mod_eq_of_lt (show 1 < w by omega)]; simp [show w - (0+1) + 1 = w by omega]
      simp only [SerIt.next, hmod, h0, if_true, List.tail_cons, Nat.add_zero, Nat.zero_add]
      rfl
    · have h1 : (idx + 1) % w = w - k := by
        rw [Nat.add_mod, hi, Nat.mod_eq_of_lt (show 1 < w by omega),
          show w - (k + 1) + 1 = w - k by omega, Nat.mod_eq_of_lt (by omega)]
      have h2 : ¬ (w - k = 0) := by omega
      simp only [SerIt.next, hmod, h1, h2, if_false]
      rw [ih fuel _ (by omega) (by omega) (by rw [hmod, h1])]
      have e : ((idx + 1) % 2 ^ 32 + k) % 2 ^ 32 = (idx + (k + 1)) % 2 ^ 32 := by omega
      rw [Option.map_map, e]
      rfl

theorem run_eq (w : Nat) (hw : 0 < w) (hd : w ∣ 2 ^ 32) (xs : List Nat) (idx : Nat) (hi : idx % w = 0) :
    SerIt.run w (xs.length * w) ⟨xs, idx⟩ = some (xs.flatMap (serialize w)) := by
  induction xs generalizing idx with
  | nil => simp [SerIt.run, SerIt.neEnd, hi]
  | cons x xs ih =>
    rw [List.length_cons, Nat.add_mul, Nat.one_mul, run_item w x xs hw hd w _ idx (Nat.le_refl _) hw (by omega),
      ih _ (by rw [Nat.mod_mod_of_dvd _ hd, Nat.add_mod_right, hi])]
    simp

theorem deserRun_eq (w : Nat) (hw : 0 < w) (xs : List Nat) (h : ∀ x ∈ xs, x < 2 ^ (8 * w)) :
    deserRun w xs.length (xs.flatMap (serialize w)) = some xs := by
  induction xs with
  | nil => simp [deserRun]
  | cons x xs ih =>
    rw [List.flatMap_cons, List.length_cons]
    have hl := serialize_length w x
    have e := deserDeref_eq w (serialize w x) (xs.flatMap (serialize w)) 0 (by positivity)
    rw [hl, Nat.zero_mul, Nat.zero_add, beValue_serialize, ← pow8, Nat.mod_mod,
      Nat.mod_eq_of_lt (h x (by simp))] at e
    cases hs : serialize w x with
    | nil => rw [hs] at hl; simp at hl; omega
    | cons b bs =>
      rw [hs, List.cons_append] at e
      simp only [List.cons_append, deserRun, e]
      rw [show (b :: (bs ++ List.flatMap (serialize w) xs)) = serialize w x ++ List.flatMap (serialize w) xs by
        rw [hs]; rfl]
      rw [List.drop_append_of_le_length (by omega), List.drop_eq_nil_of_le (by omega), List.nil_append,
        ih (fun y hy => h y (by simp [hy]))]
      rfl

end Verif.Proof.Serialize
