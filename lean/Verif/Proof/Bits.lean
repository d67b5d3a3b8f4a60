/- Bit arithmetic on `Nat` used by several models. -/
namespace Verif.Proof

theorem and_low (k x m : Nat) (hm : m = 2 ^ k - 1) : x &&& m = x % 2 ^ k := by
  subst hm; exact Nat.and_two_pow_sub_one_eq_mod x k

/-- A mask selecting all bits `k ..< n` of an `n`-bit number. -/
theorem and_high {x n k m : Nat} (hx : x < 2 ^ n) (hk : k ≤ n) (hm : m = 2 ^ n - 2 ^ k) :
    x &&& m = x / 2 ^ k * 2 ^ k := by
  subst hm
  apply Nat.eq_of_testBit_eq
  intro i
  have e : 2 ^ n - 2 ^ k = (2 ^ (n - k) - 1) <<< k := by
    rw [Nat.shiftLeft_eq, Nat.sub_mul, ← Nat.pow_add, Nat.sub_add_cancel hk, Nat.one_mul]
  have e2 : x / 2 ^ k * 2 ^ k = (x >>> k) <<< k := by
    rw [Nat.shiftLeft_eq, Nat.shiftRight_eq_div_pow]
  rw [Nat.testBit_and, e, e2]
  simp only [Nat.testBit_shiftLeft, Nat.testBit_two_pow_sub_one, Nat.testBit_shiftRight]
  by_cases h : k ≤ i
  · simp [h]
    by_cases h2 : i < n
    · simp [show i - k < n - k by omega]
    · have : x.testBit i = false :=
        Nat.testBit_lt_two_pow (Nat.lt_of_lt_of_le hx (Nat.pow_le_pow_right (by omega) (by omega)))
      simp [this]
  · simp [h]

theorem and_high_eq_zero {x n k m : Nat} (hx : x < 2 ^ n) (hk : k ≤ n) (hm : m = 2 ^ n - 2 ^ k) :
    x &&& m = 0 ↔ x < 2 ^ k := by
  rw [and_high hx hk hm]
  have hp : 0 < 2 ^ k := Nat.two_pow_pos k
  constructor
  · intro h
    rcases Nat.mul_eq_zero.mp h with h | h
    · exact (Nat.div_eq_zero_iff_lt hp).mp h
    · omega
  · intro h; rw [Nat.div_eq_of_lt h, Nat.zero_mul]

/-- A mask selecting bits `k ..< n`, shifted down. -/
theorem and_mid (x n k m : Nat) (hm : m = (2 ^ n - 1) <<< k) : (x &&& m) >>> k = x / 2 ^ k % 2 ^ n := by
  subst hm
  apply Nat.eq_of_testBit_eq
  intro i
  rw [← Nat.and_two_pow_sub_one_eq_mod, ← Nat.shiftRight_eq_div_pow]
  simp [Nat.testBit_shiftRight, Nat.testBit_and, Nat.testBit_shiftLeft, Bool.and_comm]

end Verif.Proof
