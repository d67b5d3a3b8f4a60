import Verif.Model.Percent
import Verif.Spec.Percent
/- Numerals. -/
namespace Verif.Proof.Digits
open Verif.Model.Coder Verif.Model.Percent Verif.Spec.Percent

theorem digitChar_toNat (d : Nat) (h : d < 16) :
    (Nat.digitChar d).toNat = if d < 10 then 0x30 + d else 0x61 + (d - 10) := by
  have : ∀ d < 16, (Nat.digitChar d).toNat = if d < 10 then 0x30 + d else 0x61 + (d - 10) := by decide
  exact this d h

theorem toChars_eq (b n : Nat) (hb : 1 < b) (hb' : b ≤ 16) : toChars b n = (Nat.toDigits b n).map Char.toNat := by
  induction n using Nat.strongRecOn with
  | ind n ih =>
    rw [toChars, Nat.toDigits_eq_if hb]
    by_cases h : n < b
    · rw [dif_pos (Or.inl h), if_pos h, List.map_cons, digitChar_toNat n (by omega)]; rfl
    · rw [dif_neg (by omega), if_neg h, ih (n / b) (Nat.div_lt_self (by omega) hb), List.map_append, List.map_cons,
        digitChar_toNat (n % b) (by have := Nat.mod_lt n (show 0 < b by omega); omega)]
      rfl

theorem toChars_decimal (n : Nat) : toChars 10 n = decimal n := by
  rw [toChars_eq 10 n (by omega) (by omega), decimal, codes, Nat.toString_eq_repr, Nat.toList_repr]

theorem digitVal_digit (d : Nat) (h : d < 16) : digitVal (if d < 10 then 0x30 + d else 0x61 + (d - 10)) = d := by
  unfold digitVal; split <;> split <;> (try split) <;> omega

theorem fromChars_append (b : Nat) (s : List Nat) (c : Nat) : fromChars b (s ++ [c]) = fromChars b s * b + digitVal c := by
  simp [fromChars]

theorem fromChars_toChars (b n : Nat) (hb : 1 < b) (hb' : b ≤ 16) : fromChars b (toChars b n) = n := by
  induction n using Nat.strongRecOn with
  | ind n ih =>
    rw [toChars]
    by_cases h : n < b
    · rw [dif_pos (Or.inl h)]
      simp only [fromChars, List.foldl_cons, List.foldl_nil, Nat.zero_mul, Nat.zero_add]
      exact digitVal_digit n (by omega)
    · rw [dif_neg (by omega), fromChars_append, ih (n / b) (Nat.div_lt_self (by omega) hb),
        digitVal_digit _ (by have := Nat.mod_lt n (show 0 < b by omega); omega), Nat.div_add_mod' n b]

theorem toChars_digit (n : Nat) : ∀ c ∈ toChars 10 n, 0x30 ≤ c ∧ c ≤ 0x39 := by
  induction n using Nat.strongRecOn with
  | ind n ih =>
    rw [toChars]
    by_cases h : n < 10
    · rw [dif_pos (Or.inl h), if_pos h]; simp; omega
    · rw [dif_neg (by omega)]
      have hm := Nat.mod_lt n (show 0 < 10 by omega)
      intro c hc
      rw [if_pos hm, List.mem_append, List.mem_singleton] at hc
      rcases hc with hc | rfl
      · exact ih (n / 10) (by omega) c hc
      · omega

theorem toChars16 (b : Nat) (h : b < 256) : toChars 16 b =
    if b < 16 then [if b < 10 then 0x30 + b else 0x61 + (b - 10)]
    else [if b / 16 < 10 then 0x30 + b / 16 else 0x61 + (b / 16 - 10),
      if b % 16 < 10 then 0x30 + b % 16 else 0x61 + (b % 16 - 10)] := by
  rw [toChars]
  by_cases h1 : b < 16
  · rw [dif_pos (Or.inl h1), if_pos h1]
  · rw [dif_neg (by omega), if_neg h1, toChars, dif_pos (Or.inl (by omega))]; rfl

end Verif.Proof.Digits
