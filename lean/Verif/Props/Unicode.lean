import Verif.Proof.Unicode
/-
Properties C24, C25, C26: code point codecs and encoding_cast.
-/
namespace Verif.Props.Unicode
open Verif.Model.Unicode Verif.Spec Verif.Proof.Unicode

/-- C24. Writing a scalar value as UTF-8 appends its Unicode-standard encoding form; reading it back, whatever
follows, gives the value and stops exactly after it. -/
theorem C24_utf8_round_trip (c : Nat) (h : IsScalar c) (rest : List Nat) :
    toString8 c = some (utf8 c) ∧ toCodePoint8 (utf8 c ++ rest) = some (c, rest) := by
  have hc : c < 0x200000 := by unfold IsScalar at h; omega
  exact ⟨toString8_eq hc, toCodePoint8_utf8 hc rest⟩

example : IsScalar 0x20AC ∧ utf8 0x20AC = [0xE2, 0x82, 0xAC] := by decide
example : IsScalar 0x10FFFF ∧ utf8 0x10FFFF = [0xF4, 0x8F, 0xBF, 0xBF] := by decide

/-- C24 (extent). No other value below 2^21 shares an encoding, and from 2^21 on the writer refuses
(assertion), so the writer is injective where it is defined. -/
theorem C24_utf8_injective (c d : Nat) (hc : c < 2 ^ 32) (hd : d < 2 ^ 32) (bs : List Nat)
    (h1 : toString8 c = some bs) (h2 : toString8 d = some bs) : c = d := by
  have dom : ∀ x, x < 2 ^ 32 → toString8 x = some bs → x < 0x200000 := by
    intro x hx h
    apply Classical.byContradiction
    intro hge
    unfold toString8 at h
    simp only [Verif.Proof.and_high_eq_zero (k := 7) (m := 0xFFFFFF80) hx (by omega) (by decide),
      Verif.Proof.and_high_eq_zero (k := 11) (m := 0xFFFFF800) hx (by omega) (by decide),
      Verif.Proof.and_high_eq_zero (k := 16) (m := 0xFFFF0000) hx (by omega) (by decide),
      Verif.Proof.and_high_eq_zero (k := 21) (m := 0xFFE00000) hx (by omega) (by decide)] at h
    rw [if_neg (by omega), if_neg (by omega), if_neg (by omega), if_neg (by omega)] at h
    cases h
  have e1 := toCodePoint8_utf8 (dom c hc h1) []
  have e2 := toCodePoint8_utf8 (dom d hd h2) []
  rw [toString8_eq (dom c hc h1)] at h1
  rw [toString8_eq (dom d hd h2)] at h2
  simp only [Option.some.injEq] at h1 h2
  rw [h1] at e1; rw [h2, e1] at e2
  simp_all

example : toString8 0xE9 = some [0xC3, 0xA9] := by decide

/-- C25. The same for UTF-16. -/
theorem C25_utf16_round_trip (c : Nat) (h : IsScalar c) (rest : List Nat) :
    toString16 c = some (utf16 c) ∧ toCodePoint16 (utf16 c ++ rest) = some (c, rest) :=
  ⟨toString16_eq (by unfold IsScalar at h; omega), toCodePoint16_utf16 h rest⟩

example : IsScalar 0x1F600 ∧ utf16 0x1F600 = [0xD83D, 0xDE00] := by decide

/-- Strings of a character type denoting the scalar value string `s` (specification only). -/
def formOf : CharT → List Nat → List Nat
  | .c8, s => s.flatMap utf8
  | .c16, s => s.flatMap utf16
  | .c32, s => s

theorem formOf_eq (ct : CharT) (s : List Nat) : formOf ct s = s.flatMap (encForm ct) := by
  cases ct
  · rfl
  · rfl
  · simp only [formOf, encForm]; induction s with
    | nil => rfl
    | cons c s ih => rw [List.flatMap_cons, ← ih]; rfl

/-- C26. `encoding_cast` maps the `src` form of any scalar value string to its `dst` form. -/
theorem C26_encoding_cast (src dst : CharT) (s : List Nat) (h : ∀ c ∈ s, IsScalar c) :
    encodingCast src dst (formOf src s) = some (formOf dst s) := by
  unfold encodingCast
  split
  · rename_i e; rw [e]
  · rw [formOf_eq src, formOf_eq dst, loopCP_foldlM src _ _ _ h, foldlM_emit dst _ _ h]; simp

/-- C26. Hence converting and converting back is the identity. -/
theorem C26_encoding_cast_round_trip (src dst : CharT) (s : List Nat) (h : ∀ c ∈ s, IsScalar c) :
    (encodingCast src dst (formOf src s)).bind (encodingCast dst src) = some (formOf src s) := by
  rw [C26_encoding_cast src dst s h, Option.bind_some, C26_encoding_cast dst src s h]

example : (∀ c ∈ [0x41, 0xE9, 0x20AC, 0x1F600], IsScalar c) ∧
    formOf .c8 [0x41, 0xE9, 0x1F600] = [0x41, 0xC3, 0xA9, 0xF0, 0x9F, 0x98, 0x80] := by decide

/-- C26 (necessity of the hypothesis). On a lone lead surrogate unit the cast runs into an assertion. -/
theorem C26_unpaired_surrogate_is_ub : encodingCast .c16 .c8 [0xD800] = none := by
  rw [encodingCast, loopCP]; decide


end Verif.Props.Unicode
