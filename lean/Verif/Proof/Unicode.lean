import Mathlib.Tactic.NormNum
import Verif.Model.Unicode
import Verif.Spec.Unicode
import Verif.Proof.Bits
/- Lemmas about the code point codecs. -/
namespace Verif.Proof.Unicode
open Verif.Model.Unicode Verif.Spec Verif.Proof

theorem toString8_eq {c : Nat} (h : c < 0x200000) : toString8 c = some (utf8 c) := by
  have h32 : c < 2 ^ 32 := by omega
  unfold toString8 utf8
  simp only [and_high_eq_zero (k := 7) (m := 0xFFFFFF80) h32 (by omega) (by decide),
    and_high_eq_zero (k := 11) (m := 0xFFFFF800) h32 (by omega) (by decide),
    and_high_eq_zero (k := 16) (m := 0xFFFF0000) h32 (by omega) (by decide),
    and_high_eq_zero (k := 21) (m := 0xFFE00000) h32 (by omega) (by decide),
    and_low 6 c 0x3F (by decide), and_mid c 6 6 0xFC0 (by decide), and_mid c 6 12 0x3F000 (by decide),
    Nat.shiftRight_eq_div_pow]
  norm_num
  by_cases h1 : c < 128
  · simp [h1]; omega
  by_cases h2 : c < 2048
  · simp [h1, h2]; omega
  by_cases h3 : c < 65536
  · simp [h1, h2, h3]; omega
  · simp [h1, h2, h3, h]; omega

theorem toString16_eq {c : Nat} (h : c ≤ 0x10FFFF) : toString16 c = some (utf16 c) := by
  have h32 : c < 2 ^ 32 := by omega
  unfold toString16 utf16
  simp only [
    and_high_eq_zero (k := 16) (m := 0xFFFF0000) h32 (by omega) (by decide),
    and_high_eq_zero (k := 21) (m := 0xFFE00000) h32 (by omega) (by decide)]
  norm_num
  by_cases h3 : c < 65536
  · simp [h3]
  · simp [h3, show c < 2097152 by omega]; omega

theorem byte_facts : ∀ b < 256, ((b &&& 0x80 = 0) ↔ b < 0x80) ∧ ((b &&& 0xC0 = 0x80) ↔ (0x80 ≤ b ∧ b < 0xC0)) ∧
    ((b &&& 0xE0 = 0xC0) ↔ (0xC0 ≤ b ∧ b < 0xE0)) ∧ ((b &&& 0xF0 = 0xE0) ↔ (0xE0 ≤ b ∧ b < 0xF0)) ∧
    ((b &&& 0xF8 = 0xF0) ↔ (0xF0 ≤ b ∧ b < 0xF8)) := by
  decide +kernel

theorem b80 {b : Nat} (h : b < 256) : (b &&& 0x80 = 0) = (b < 0x80) := propext (byte_facts b h).1
theorem bC0 {b : Nat} (h : b < 256) : (b &&& 0xC0 = 0x80) = (0x80 ≤ b ∧ b < 0xC0) := propext (byte_facts b h).2.1
theorem bE0 {b : Nat} (h : b < 256) : (b &&& 0xE0 = 0xC0) = (0xC0 ≤ b ∧ b < 0xE0) := propext (byte_facts b h).2.2.1
theorem bF0 {b : Nat} (h : b < 256) : (b &&& 0xF0 = 0xE0) = (0xE0 ≤ b ∧ b < 0xF0) := propext (byte_facts b h).2.2.2.1
theorem bF8 {b : Nat} (h : b < 256) : (b &&& 0xF8 = 0xF0) = (0xF0 ≤ b ∧ b < 0xF8) := propext (byte_facts b h).2.2.2.2

theorem toCodePoint8_1 {a : Nat} {r : List Nat} (ha : a < 0x80) : toCodePoint8 (a :: r) = some (a, r) := by
  simp [toCodePoint8, b80 (show a < 256 by omega), ha]

theorem toCodePoint8_2 {a b : Nat} {r : List Nat} (ha : 0xC0 ≤ a ∧ a < 0xE0) (hb : 0x80 ≤ b ∧ b < 0xC0) :
    toCodePoint8 (a :: b :: r) = some (a % 32 * 64 + b % 64, r) := by
  simp only [toCodePoint8, ne_eq, b80 (show a < 256 by omega), bC0 (show b < 256 by omega), bE0 (show a < 256 by omega),
    and_low 5 a 0x1F (by decide), and_low 6 b 0x3F (by decide), Nat.shiftLeft_eq]
  simp [show ¬ a < 0x80 by omega, ha, hb]

theorem toCodePoint8_3 {a b c : Nat} {r : List Nat} (ha : 0xE0 ≤ a ∧ a < 0xF0) (hb : 0x80 ≤ b ∧ b < 0xC0)
    (hc : 0x80 ≤ c ∧ c < 0xC0) :
    toCodePoint8 (a :: b :: c :: r) = some (a % 16 * 4096 + b % 64 * 64 + c % 64, r) := by
  simp only [toCodePoint8, ne_eq, b80 (show a < 256 by omega), bC0 (show b < 256 by omega), bC0 (show c < 256 by omega),
    bE0 (show a < 256 by omega), bF0 (show a < 256 by omega),
    and_low 4 a 0xF (by decide), and_low 6 b 0x3F (by decide), and_low 6 c 0x3F (by decide), Nat.shiftLeft_eq]
  simp [show ¬ a < 0x80 by omega, show ¬ (192 ≤ a ∧ a < 224) by omega, ha, hb, hc]

theorem toCodePoint8_4 {a b c d : Nat} {r : List Nat} (ha : 0xF0 ≤ a ∧ a < 0xF8) (hb : 0x80 ≤ b ∧ b < 0xC0)
    (hc : 0x80 ≤ c ∧ c < 0xC0) (hd : 0x80 ≤ d ∧ d < 0xC0) :
    toCodePoint8 (a :: b :: c :: d :: r) = some (a % 8 * 262144 + b % 64 * 4096 + c % 64 * 64 + d % 64, r) := by
  simp only [toCodePoint8, ne_eq, b80 (show a < 256 by omega), bC0 (show b < 256 by omega), bC0 (show c < 256 by omega),
    bC0 (show d < 256 by omega),
    bE0 (show a < 256 by omega), bF0 (show a < 256 by omega), bF8 (show a < 256 by omega),
    and_low 3 a 0x7 (by decide), and_low 6 b 0x3F (by decide), and_low 6 c 0x3F (by decide),
    and_low 6 d 0x3F (by decide), Nat.shiftLeft_eq]
  simp [show ¬ a < 0x80 by omega, show ¬ (192 ≤ a ∧ a < 224) by omega, show ¬ (224 ≤ a ∧ a < 240) by omega,
    ha, hb, hc, hd]

theorem toCodePoint8_utf8 {c : Nat} (h : c < 0x200000) (r : List Nat) :
    toCodePoint8 (utf8 c ++ r) = some (c, r) := by
  unfold utf8
  split
  · exact toCodePoint8_1 (by omega)
  split
  · refine (toCodePoint8_2 (by omega) (by omega)).trans ?_
    simp; omega
  split
  · refine (toCodePoint8_3 (by omega) (by omega) (by omega)).trans ?_
    simp; omega
  · refine (toCodePoint8_4 (by omega) (by omega) (by omega) (by omega)).trans ?_
    simp; omega

theorem and_FC00 {u : Nat} (h : u < 65536) : u &&& 0xFC00 = u / 1024 * 1024 :=
  and_high (n := 16) (k := 10) h (by omega) (by decide)

theorem toCodePoint16_utf16 {c : Nat} (h : IsScalar c) (r : List Nat) :
    toCodePoint16 (utf16 c ++ r) = some (c, r) := by
  unfold IsScalar at h
  unfold utf16
  split
  · simp only [toCodePoint16, List.cons_append, List.nil_append, and_FC00 (show c < 65536 by omega)]
    simp; omega
  · simp only [toCodePoint16, List.cons_append, List.nil_append,
      and_FC00 (show 55296 + (c - 65536) / 1024 < 65536 by omega),
      and_FC00 (show 56320 + (c - 65536) % 1024 < 65536 by omega)]
    rw [if_neg (by omega), if_neg (by omega)]
    simp; omega

/-- Encoding form of a character type. -/
def encForm : CharT → Nat → List Nat
  | .c8 => utf8
  | .c16 => utf16
  | .c32 => utf32

theorem toString_scalar (ct : CharT) {c : Nat} (h : IsScalar c) : toString ct c = some (encForm ct c) := by
  unfold IsScalar at h
  cases ct
  · exact toString8_eq (by omega)
  · exact toString16_eq (by omega)
  · rfl

theorem toCodePoint_scalar (ct : CharT) {c : Nat} (h : IsScalar c) (r : List Nat) :
    toCodePoint ct (encForm ct c ++ r) = some (c, r) := by
  cases ct
  · exact toCodePoint8_utf8 (by unfold IsScalar at h; omega) r
  · exact toCodePoint16_utf16 h r
  · rfl

theorem encForm_ne_nil (ct : CharT) (c : Nat) : encForm ct c ≠ [] := by
  cases ct
  · simp only [encForm, utf8]; repeat' split
    all_goals simp
  · simp only [encForm, utf16]; split <;> simp
  · simp [encForm, utf32]

theorem loopCP_nil {σ : Type} (ct : CharT) (body : σ → Nat → Option σ) (st : σ) : loopCP ct body st [] = some st := by
  rw [loopCP]; simp

theorem loopCP_cons {σ : Type} (ct : CharT) (body : σ → Nat → Option σ) (st : σ) {c : Nat} (h : IsScalar c)
    (r : List Nat) :
    loopCP ct body st (encForm ct c ++ r) = (body st c).bind fun st' => loopCP ct body st' r := by
  rw [loopCP]
  have hne : (encForm ct c ++ r).isEmpty = false := by
    simp [encForm_ne_nil]
  simp only [hne]
  simp only [Bool.false_eq_true, if_false]
  split
  · rename_i h2; rw [toCodePoint_scalar ct h] at h2; cases h2
  · rename_i h2; rw [toCodePoint_scalar ct h] at h2; cases h2
    cases body st c <;> rfl

/-- The loop over the encoding of a scalar value string is a fold over the string. -/
theorem loopCP_foldlM {σ : Type} (ct : CharT) (body : σ → Nat → Option σ) (st : σ) (s : List Nat)
    (h : ∀ c ∈ s, IsScalar c) :
    loopCP ct body st (s.flatMap (encForm ct)) = s.foldlM body st := by
  induction s generalizing st with
  | nil => simp [loopCP_nil]
  | cons c s ih =>
    rw [List.flatMap_cons, loopCP_cons ct body st (h c (by simp)), List.foldlM_cons]
    cases hb : body st c with
    | none => rfl
    | some st' => exact ih st' (fun c hc => h c (by simp [hc]))

theorem emit_scalar (ct : CharT) (out : List Nat) {c : Nat} (h : IsScalar c) :
    emit ct out c = some (out ++ encForm ct c) := by
  simp [emit, toString_scalar ct h]

theorem foldlM_emit (ct : CharT) (s out : List Nat) (h : ∀ c ∈ s, IsScalar c) :
    s.foldlM (emit ct) out = some (out ++ s.flatMap (encForm ct)) := by
  induction s generalizing out with
  | nil => simp
  | cons c s ih =>
    rw [List.foldlM_cons, emit_scalar ct out (h c (by simp))]
    simp only [Option.bind_eq_bind, Option.bind_some]
    rw [ih _ (fun c hc => h c (by simp [hc]))]
    simp

end Verif.Proof.Unicode
