import Verif.Model.Table
import Mathlib.Tactic.ByContra
/- Statements about whole tables. -/
namespace Verif.Proof.Tables
open Verif.Model.Table

/-- `f` holds from `i` on for `2 ^ d` numbers. -/
def allFrom (f : Nat → Bool) : Nat → Nat → Bool
  | 0, i => f i
  | d + 1, i => allFrom f d i && allFrom f d (i + 2 ^ d)

theorem allFrom_spec {f : Nat → Bool} : ∀ {d i : Nat}, allFrom f d i = true → ∀ j, j < 2 ^ d → f (i + j) = true
  | 0, i, h, j, hj => by
    have : j = 0 := by simpa using hj
    subst this; simpa [allFrom] using h
  | d + 1, i, h, j, hj => by
    rw [allFrom, Bool.and_eq_true] at h
    by_cases hd : j < 2 ^ d
    · exact allFrom_spec h.1 j hd
    · have e := allFrom_spec h.2 (j - 2 ^ d) (by rw [Nat.pow_succ] at hj; omega)
      rwa [show i + 2 ^ d + (j - 2 ^ d) = i + j by omega] at e

theorem below {f : Nat → Bool} {n d : Nat} (h : allFrom (fun k => Nat.ble n k || f k) d 0 = true) (hd : n ≤ 2 ^ d) :
    ∀ k, k < n → f k = true := by
  intro k hk
  have := allFrom_spec h k (by omega)
  rw [Nat.zero_add, Bool.or_eq_true] at this
  rcases this with h | h
  · have := Nat.le_of_ble_eq_true h; omega
  · exact h

theorem lowerBound_le (t : Table) (v : Nat) : ∀ fuel first len, lowerBound t v fuel first len ≤ first + len
  | 0, first, len => by simp [lowerBound]
  | fuel + 1, first, len => by
    rw [lowerBound]
    split
    · have hh : len >>> 1 = len / 2 := by rw [Nat.shiftRight_eq_div_pow]
      rw [hh]
      dsimp only
      split
      · have := lowerBound_le t v fuel (first + len / 2 + 1) (len - len / 2 - 1); omega
      · have := lowerBound_le t v fuel first (len / 2); omega
    · omega

/-- A pointer comes from an entry of the table for its code point. -/
theorem pointer_entry {t0 t1 : Table} {cp p : Nat} (h : pointer t0 t1 cp = some p) :
    ∃ k, k < t0.size ∧ t0.get k = cp ∧ t1.get k = p := by
  unfold pointer at h
  dsimp only at h
  split at h
  · rename_i hc
    have := lowerBound_le t0 cp 32 0 t0.size
    exact ⟨_, by omega, hc.2, by simpa using h⟩
  · cases h

/-- The entries of the pointer tables are entries of the code point table. -/
def Agree (t t0 t1 : Table) : Prop := ∀ k, k < t0.size → codePoint t (t1.get k) = some (t0.get k) ∧ t1.get k < t.size

def agreeAt (t t0 t1 : Table) (k : Nat) : Bool :=
  Nat.blt (t1.get k) t.size && Nat.beq (t.get (t1.get k)) (t0.get k) && !Nat.beq (t0.get k) 0xFFFFF

theorem codePoint_of_lt {t : Table} {p : Nat} (h : p < t.size) (hs : t.size ≤ 65536) (hm : t.get p ≠ 0xFFFFF) :
    codePoint t p = some (t.get p) := by
  unfold codePoint
  rw [Nat.mod_eq_of_lt (by omega)]
  dsimp only
  rw [if_neg (by omega), if_neg hm]

theorem agree_of {t t0 t1 : Table} {d : Nat}
    (h : allFrom (fun k => Nat.ble t0.size k || agreeAt t t0 t1 k) d 0 = true) (hd : t0.size ≤ 2 ^ d)
    (hs : t.size ≤ 65536) : Agree t t0 t1 := by
  intro k hk
  have := below h hd k hk
  unfold agreeAt at this
  simp only [Bool.and_eq_true, Bool.not_eq_true'] at this
  obtain ⟨⟨h1, h2⟩, h3⟩ := this
  have h1 : t1.get k < t.size := by simpa [Nat.blt_eq] using h1
  have h2 : t.get (t1.get k) = t0.get k := Nat.eq_of_beq_eq_true h2
  have h3 : t0.get k ≠ 0xFFFFF := by
    intro e; rw [e] at h3; simp at h3
  exact ⟨by rw [codePoint_of_lt h1 hs (by rw [h2]; exact h3), h2], h1⟩

theorem Agree.pointer {t t0 t1 : Table} (h : Agree t t0 t1) {cp p : Nat} (hp : pointer t0 t1 cp = some p) :
    codePoint t p = some cp ∧ p < t.size := by
  obtain ⟨k, hk, h0, h1⟩ := pointer_entry hp
  have := h k hk
  rwa [h0, h1] at this

/-- Every code point of the table has a pointer. -/
def Covers (t t0 t1 : Table) : Prop := ∀ p cp, codePoint t p = some cp → ∃ p', Verif.Model.Table.pointer t0 t1 cp = some p'

theorem codePoint_some {t : Table} {p cp : Nat} (h : codePoint t p = some cp) :
    p % 65536 < t.size ∧ t.get (p % 65536) = cp ∧ cp ≠ 0xFFFFF := by
  unfold codePoint at h
  dsimp only at h
  split at h
  · cases h
  · split at h
    · cases h
    · cases h
      exact ⟨by omega, rfl, by assumption⟩

/-- The entries ascend. -/
def Ascends (t : Table) : Prop := ∀ i j, i < j → j < t.size → t.get i < t.get j

def ascendsAt (t : Table) (k : Nat) : Bool := Nat.ble t.size (k + 1) || Nat.blt (t.get k) (t.get (k + 1))

theorem ascends_of {t : Table} {d : Nat} (h : allFrom (fun k => Nat.ble t.size k || ascendsAt t k) d 0 = true)
    (hd : t.size ≤ 2 ^ d) : Ascends t := by
  have step : ∀ k, k + 1 < t.size → t.get k < t.get (k + 1) := by
    intro k hk
    have := below h hd k (by omega)
    unfold ascendsAt at this
    rw [Bool.or_eq_true] at this
    rcases this with h | h
    · have := Nat.le_of_ble_eq_true h; omega
    · simpa [Nat.blt_eq] using h
  intro i j hij hj
  induction j with
  | zero => omega
  | succ j ih =>
    by_cases e : i = j
    · subst e; exact step i hj
    · exact Nat.lt_trans (ih (by omega) (by omega)) (step j hj)

theorem lowerBound_eq {t : Table} (ha : Ascends t) {k : Nat} (hk : k < t.size) : ∀ fuel first len, first ≤ k →
    k ≤ first + len → first + len ≤ t.size → len < 2 ^ fuel → lowerBound t (t.get k) fuel first len = k
  | 0, first, len, h1, h2, _, h4 => by
    have : len = 0 := by simpa using h4
    rw [lowerBound]; omega
  | fuel + 1, first, len, h1, h2, h3, h4 => by
    rw [lowerBound]
    have hh : len >>> 1 = len / 2 := by rw [Nat.shiftRight_eq_div_pow]
    rw [hh]
    dsimp only
    rw [Nat.pow_succ] at h4
    split
    · split
      · rename_i hlt
        have : first + len / 2 < k := by
          by_contra hc
          rcases Nat.lt_or_eq_of_le (Nat.le_of_not_lt hc) with h | h
          · have := ha k (first + len / 2) h (by omega); omega
          · rw [← h] at hlt; omega
        exact lowerBound_eq ha hk fuel _ _ (by omega) (by omega) (by omega) (by omega)
      · rename_i hlt
        have : k ≤ first + len / 2 := by
          by_contra hc
          have := ha (first + len / 2) k (by omega) hk; omega
        exact lowerBound_eq ha hk fuel _ _ (by omega) (by omega) (by omega) (by omega)
    · omega

theorem pointer_get {t0 t1 : Table} (ha : Ascends t0) (hs : t0.size < 2 ^ 32) {k : Nat} (hk : k < t0.size) :
    Verif.Model.Table.pointer t0 t1 (t0.get k) = some (t1.get k) := by
  unfold Verif.Model.Table.pointer
  dsimp only
  rw [lowerBound_eq ha hk 32 0 t0.size (by omega) (by omega) (by omega) hs, if_pos ⟨by omega, rfl⟩]

/-- The set of the first `n` entries from `i` on, as a bit set. -/
def bitsFrom (t : Table) : Nat → Nat → Nat
  | 0, i => if i < t.size then 1 <<< t.get i else 0
  | d + 1, i => bitsFrom t d i ||| bitsFrom t d (i + 2 ^ d)

theorem bitsFrom_spec {t : Table} {c : Nat} : ∀ {d i : Nat}, (bitsFrom t d i).testBit c = true →
    ∃ k, k < t.size ∧ t.get k = c
  | 0, i, h => by
    rw [bitsFrom] at h
    split at h
    · rw [Nat.shiftLeft_eq, Nat.one_mul, Nat.testBit_two_pow] at h
      exact ⟨i, by assumption, by simpa using h⟩
    · simp at h
  | d + 1, i, h => by
    rw [bitsFrom, Nat.testBit_or, Bool.or_eq_true] at h
    rcases h with h | h
    · exact bitsFrom_spec h
    · exact bitsFrom_spec h

def coversAt (t : Table) (b p : Nat) : Bool := Nat.beq (t.get p) 0xFFFFF || Nat.beq ((b >>> t.get p) % 2) 1

theorem covers_of {t t0 t1 : Table} {d e b : Nat} (hb : b = bitsFrom t0 e 0) (ha : Ascends t0) (hs : t0.size < 2 ^ 32)
    (h : allFrom (fun k => Nat.ble t.size k || coversAt t b k) d 0 = true) (hd : t.size ≤ 2 ^ d) :
    Covers t t0 t1 := by
  intro p cp hp
  obtain ⟨h1, h2, h3⟩ := codePoint_some hp
  have := below h hd _ h1
  unfold coversAt at this
  rw [h2, Bool.or_eq_true] at this
  rcases this with h | h
  · exact absurd (Nat.eq_of_beq_eq_true h) h3
  · have h := Nat.eq_of_beq_eq_true h
    have hbit : (bitsFrom t0 e 0).testBit cp = true := by
      rw [← hb, Nat.testBit_eq_decide_div_mod_eq, ← Nat.shiftRight_eq_div_pow, h]; rfl
    obtain ⟨k, hk, rfl⟩ := bitsFrom_spec hbit
    exact ⟨_, pointer_get ha hs hk⟩

/-- The code point table is injective and the pointer tables invert it. -/
def Inverts (t t0 t1 : Table) : Prop := ∀ p cp, p < t.size → codePoint t p = some cp →
  Verif.Model.Table.pointer t0 t1 cp = some p

def invertsAt (t t0 t1 : Table) (p : Nat) : Bool :=
  Nat.beq (t.get p) 0xFFFFF || decide (Verif.Model.Table.pointer t0 t1 (t.get p) = some p)

theorem inverts_of {t t0 t1 : Table} {d : Nat}
    (h : allFrom (fun k => Nat.ble t.size k || invertsAt t t0 t1 k) d 0 = true) (hd : t.size ≤ 2 ^ d)
    (hs : t.size ≤ 65536) : Inverts t t0 t1 := by
  intro p cp hlt hp
  obtain ⟨h1, h2, h3⟩ := codePoint_some hp
  rw [Nat.mod_eq_of_lt (by omega)] at h2
  have := below h hd _ hlt
  unfold invertsAt at this
  rw [h2, Bool.or_eq_true] at this
  rcases this with h | h
  · exact absurd (Nat.eq_of_beq_eq_true h) h3
  · simpa using h

end Verif.Proof.Tables
