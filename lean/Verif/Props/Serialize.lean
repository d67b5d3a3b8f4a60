import Verif.Proof.Serialize
/-
Property C22: integer serialization.
-/
namespace Verif.Props.Serialize
open Verif.Model.Serialize Verif.Spec Verif.Proof.Serialize

/-- C22. `serialize` of a `w`-byte unsigned integer is its big-endian representation. -/
theorem C22_serialize_big_endian (w n : Nat) (h : n < 2 ^ (8 * w)) : IsBigEndian w n (serialize w n) :=
  ⟨serialize_length w n, serialize_bytes w n, by
    rw [beValue_serialize, ← pow8, Nat.mod_eq_of_lt h]⟩

/-- C22. `deserialize` reads back any big-endian representation, whatever follows, and stops after it. -/
theorem C22_deserialize_big_endian (w n : Nat) (bs rest : List Nat) (h : IsBigEndian w n bs) :
    deserialize w (bs ++ rest) = (n, rest) := by
  obtain ⟨hl, hb, hv⟩ := h
  have e := deserializeLoop_eq w bs rest 0 (by positivity)
  have hlt := beValue_lt bs hb
  rw [hl, hv, ← pow8] at hlt
  rw [hl, hv, Nat.zero_mul, Nat.zero_add, Nat.mod_eq_of_lt hlt] at e
  exact e

/-- C22. Round trip for unsigned integers. -/
theorem C22_round_trip (w n : Nat) (h : n < 2 ^ (8 * w)) (rest : List Nat) :
    deserialize w (serialize w n ++ rest) = (n, rest) :=
  C22_deserialize_big_endian w n _ rest (C22_serialize_big_endian w n h)

/-- C22. Round trip for signed integers. -/
theorem C22_round_trip_signed (w : Nat) (hw : 0 < w) (x : Int)
    (h : -(2 ^ (8 * w - 1) : Nat) ≤ x ∧ x < (2 ^ (8 * w - 1) : Nat)) (rest : List Nat) :
    fromUnsigned w (deserialize w (serialize w (toUnsigned w x) ++ rest)).1 = x := by
  have hp : (2 ^ (8 * w) : Nat) = 2 * 2 ^ (8 * w - 1) := by
    rw [← Nat.pow_succ', show (8 * w - 1).succ = 8 * w by omega]
  have hpos : 0 < (2 ^ (8 * w - 1) : Nat) := by positivity
  have hlt : toUnsigned w x < 2 ^ (8 * w) := by
    unfold toUnsigned
    have h1 := Int.emod_nonneg x (b := ((2 ^ (8 * w) : Nat) : Int)) (by omega)
    have h2 := Int.emod_lt_of_pos x (b := ((2 ^ (8 * w) : Nat) : Int)) (by omega)
    omega
  rw [C22_round_trip w _ hlt]
  simp only [fromUnsigned, toUnsigned, hp]
  generalize (2 ^ (8 * w - 1) : Nat) = P at *
  obtain ⟨h1, h2⟩ := h
  by_cases hx : 0 ≤ x
  · have : x % ((2 * P : Nat) : Int) = x := Int.emod_eq_of_lt hx (by omega)
    rw [this]; split <;> omega
  · have : x % ((2 * P : Nat) : Int) = x + (2 * P : Nat) := by
      rw [← Int.add_emod_right, Int.emod_eq_of_lt (by omega) (by omega)]
    rw [this]; split <;> omega

/-- C22. `serialize_iterator` over a range, for every length of the range (its index counter wraps), produces the
concatenated big-endian representations; `deserialize_iterator` over those bytes gives the range back. -/
theorem C22_iterators (w : Nat) (hw : w = 1 ∨ w = 2 ∨ w = 4 ∨ w = 8) (xs : List Nat)
    (h : ∀ x ∈ xs, x < 2 ^ (8 * w)) :
    ∃ bs, SerIt.run w (xs.length * w) ⟨xs, 0⟩ = some bs ∧ bs.length = xs.length * w ∧
      deserRun w xs.length bs = some xs := by
  have hpos : 0 < w := by omega
  have hd : w ∣ 2 ^ 32 := by rcases hw with h | h | h | h <;> subst h <;> decide
  refine ⟨xs.flatMap (serialize w), run_eq w hpos hd xs 0 (Nat.zero_mod w), ?_, deserRun_eq w hpos xs h⟩
  induction xs with
  | nil => simp
  | cons x xs ih =>
    rw [List.flatMap_cons, List.length_append, serialize_length, ih (fun y hy => h y (by simp [hy])),
      List.length_cons, Nat.add_mul]
    omega

/-- C22. The byte strings order like the numbers. -/
theorem C22_order (w a b : Nat) (ha : a < 2 ^ (8 * w)) (hb : b < 2 ^ (8 * w)) :
    lexLt (serialize w a) (serialize w b) ↔ a < b := by
  rw [lexLt_iff _ _ (serialize_bytes w a) (serialize_bytes w b) (by simp [serialize_length]),
    beValue_serialize, beValue_serialize, ← pow8, Nat.mod_eq_of_lt ha, Nat.mod_eq_of_lt hb]

/-- C22. The single byte overload agrees with the array. -/
theorem C22_byte_overload (w n i : Nat) (h : i < w) : (serialize w n)[i]? = some (serializeAt w n i) := by
  simp [serialize, serializeAt, h]

example : serialize 4 0x1234567 = [0x01, 0x23, 0x45, 0x67] ∧ 0x1234567 < 2 ^ (8 * 4) := by decide
example : IsBigEndian 2 0x1234 [0x12, 0x34] := by
  refine ⟨rfl, ?_, rfl⟩; intro b hb; simp at hb; omega
example : -(2 ^ (8 * 2 - 1) : Nat) ≤ (-5 : Int) ∧ (-5 : Int) < (2 ^ (8 * 2 - 1) : Nat) ∧
    serialize 2 (toUnsigned 2 (-5)) = [0xFF, 0xFB] := by decide
example : SerIt.run 2 4 ⟨[0x1234, 0xABCD], 0⟩ = some [0x12, 0x34, 0xAB, 0xCD] := by decide
example : lexLt (serialize 2 0x00FF) (serialize 2 0x0100) := (C22_order 2 _ _ (by decide) (by decide)).mpr (by decide)

/-- C22. Iterating over a byte sequence whose length is not a multiple of the width is an error, never a value made up from
missing bytes. -/
theorem C22_truncated_is_error (w : Nat) (s : List Nat) (fuel : Nat) (h : s.length % w ≠ 0) :
    deserRun w fuel s = none := by
  have short : ∀ (k v : Nat) (s : List Nat), s.length < k → deserDeref w k v s = none := by
    intro k
    induction k with
    | zero => intro v s h; omega
    | succ k ih =>
      intro v s h
      cases s with
      | nil => rfl
      | cons b s => simp only [deserDeref]; exact ih _ _ (by simpa using h)
  induction fuel generalizing s with
  | zero =>
    cases s with
    | nil => simp at h
    | cons b s => rfl
  | succ fuel ih =>
    cases s with
    | nil => simp at h
    | cons b s =>
      simp only [deserRun]
      by_cases hl : (b :: s).length < w
      · rw [short w 0 _ hl]
      · have := ih ((b :: s).drop w) (by
          rw [List.length_drop]
          intro hm
          apply h
          rw [Nat.mod_eq_sub_mod (by omega)]; exact hm)
        rw [this]
        split <;> rfl

example : [1, 2, 3].length % 2 ≠ 0 := by decide


end Verif.Props.Serialize
