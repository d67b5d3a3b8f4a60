import Verif.Proof.LegacyRun
/- The gb18030 ranges: four-byte forms of the code points below U+10000. -/
namespace Verif.Proof.GbRanges
open Verif.Model.Coder Verif.Model.Table Verif.Model.Tables Verif.Model.Legacy Verif.Proof.CoderRun Verif.Proof.Utf8Coder
open Verif.Proof.Tables Verif.Proof.LegacyRun

/-- The numbers from `a` below `b` as a bit set. -/
def span (a b : Nat) : Nat := (2 ^ (b - a) - 1) <<< a

theorem span_testBit {a b k : Nat} (h1 : a ≤ k) (h2 : k < b) : (span a b).testBit k = true := by
  unfold span
  rw [Nat.testBit_shiftLeft, Nat.testBit_two_pow_sub_one]
  simp; omega

/-- Both lists of ranges describe the same ranges, which with the set `bits` leave no gap. -/
def rangesOk (bits : Nat) : List (Nat × Nat) → List (Nat × Nat) → Bool
  | (o, q) :: (o2, q2) :: ps, (q', o') :: (q2', o2') :: cs =>
    Nat.beq q q' && Nat.beq o o' && Nat.blt o o2 && Nat.blt q q2' &&
      Nat.beq (span (o + (q2' - q)) o2 &&& bits) (span (o + (q2' - q)) o2) && Nat.ble (q + min (q2' - q) (o2 - o)) 39420 &&
      rangesOk bits ((o2, q2) :: ps) ((q2', o2') :: cs)
  | [_], [_] => true
  | _, _ => false

theorem ranges_spec {bits cp : Nat} (hb : bits.testBit cp = false) :
    ∀ (ps cs : List (Nat × Nat)) (prev prev' : Option (Nat × Nat)), rangesOk bits ps cs = true →
    (∀ x ∈ ps.head?, x.1 ≤ cp) → (∀ x ∈ ps.getLast?, cp < x.1) →
    ∃ o q, rangeOf cp prev ps = some (o, q) ∧ o ≤ cp ∧ rangeOf (q + (cp - o)) prev' cs = some (q, o) ∧
      q + (cp - o) ≤ 39419 ∧ (∀ x ∈ cs.head?, x.1 ≤ q) := by
  intro ps cs
  induction ps, cs using rangesOk.induct with
  | case1 o q o2 q2 ps q' o' q2' o2' cs ih =>
    intro prev prev' h h1 h2
    rw [rangesOk] at h
    simp only [Bool.and_eq_true, Nat.blt_eq] at h
    obtain ⟨⟨⟨⟨⟨⟨e1, e2⟩, e3⟩, e4⟩, e5⟩, e7⟩, e6⟩ := h
    have e7 := Nat.le_of_ble_eq_true e7
    have e1 := Nat.eq_of_beq_eq_true e1
    have e2 := Nat.eq_of_beq_eq_true e2
    have e5 := Nat.eq_of_beq_eq_true e5
    subst e1 e2
    have h1 : o ≤ cp := h1 (o, q) rfl
    by_cases hc : cp < o2
    · have hg : cp - o < q2' - q := by
        by_contra hg
        have : (span (o + (q2' - q)) o2).testBit cp = true := span_testBit (by omega) hc
        rw [← e5, Nat.testBit_and, hb] at this
        simp at this
      refine ⟨o, q, ?_, h1, ?_, by omega, by simp⟩
      · rw [rangeOf]
        split
        · rw [rangeOf, if_neg (by simp; omega), if_neg (by simp; omega)]
        · rw [if_pos (by simp at *; omega)]
      · rw [rangeOf]
        split
        · rw [rangeOf, if_neg (by simp; omega), if_neg (by simp; omega)]
        · rw [if_pos (by simp at *; omega)]
    · obtain ⟨o', q', g1, g2, g3, g5, g4⟩ := ih (some (o, q)) (some (q, o)) e6 (by simp; omega)
        (by simpa using h2)
      have g4 : q2' ≤ q' := g4 (q2', o2') rfl
      refine ⟨o', q', ?_, g2, ?_, g5, ?_⟩
      · rw [rangeOf, if_pos (by simp; omega)]; exact g1
      · rw [rangeOf, if_pos (by simp; omega)]; exact g3
      · simp; omega
  | case2 x y =>
    intro prev prev' h h1 h2
    have := h1 x rfl
    have := h2 x rfl
    omega
  | case3 ps cs h1 h2 =>
    intro prev prev' h
    rw [rangesOk.eq_3 _ _ _ h1 h2] at h
    cases h

/-- Everything the ranges need not cover: ASCII, surrogates, U+E5E5 and U+E7C7. -/
def bitsAll : Nat := bitsGb ||| span 0xD800 0xE000 ||| 1 <<< 0xE5E5 ||| 1 <<< 0xE7C7

theorem ranges_ok : rangesOk bitsAll ptrRanges cpRanges = true := by decide +kernel

theorem range_7457 : rangeOf 7457 none cpRanges = some (820, 1106) := by decide +kernel

theorem pointer_1E3F : (Verif.Model.Table.pointer ptr0Gb18030 ptr1Gb18030 0x1E3F).isSome = true := by decide +kernel

theorem head_ptr : ptrRanges.head? = some (128, 0) := by decide +kernel
theorem last_ptr : ptrRanges.getLast? = some (65536, 57928) := by decide +kernel

theorem pointer_bits {cp : Nat} (h : Verif.Model.Table.pointer ptr0Gb18030 ptr1Gb18030 cp = none) : bitsGb.testBit cp = false := by
  by_contra hc
  have hc : bitsGb.testBit cp = true := by simpa using hc
  obtain ⟨k, hk, rfl⟩ := bitsFrom_spec hc
  rw [pointer_get ascends_gb (by decide) hk] at h
  cases h

/-- Code points below U+10000 outside the two-byte table. -/
theorem ranges_roundtrip {cp : Nat} (h0 : 0x80 ≤ cp) (h1 : cp < 0x10000) (hs : ¬ (0xD800 ≤ cp ∧ cp ≤ 0xDFFF))
    (he : cp ≠ 0xE5E5) (hp : Verif.Model.Table.pointer ptr0Gb18030 ptr1Gb18030 cp = none) :
    ∃ p, p ≤ 39419 ∧ rangesPointer cp = some p ∧ rangesCodePoint p = some (some cp) := by
  by_cases e7 : cp = 0xE7C7
  · subst e7
    exact ⟨7457, by omega, rfl, rfl⟩
  have hb : bitsAll.testBit cp = false := by
    unfold bitsAll span
    simp only [Nat.testBit_or, pointer_bits hp, Nat.testBit_shiftLeft, Nat.testBit_two_pow_sub_one,
      Bool.false_or, Bool.or_eq_false_iff, Bool.and_eq_false_iff, decide_eq_false_iff_not, Nat.testBit_one_eq_true_iff_self_eq_zero]
    refine ⟨⟨by omega, ?_⟩, ?_⟩
    · by_cases h : 0xE5E5 ≤ cp
      · right
        rw [Bool.eq_false_iff]
        intro h'
        have := Nat.testBit_one_eq_true_iff_self_eq_zero.mp h'
        omega
      · left; exact h
    · by_cases h : 0xE7C7 ≤ cp
      · right
        rw [Bool.eq_false_iff]
        intro h'
        have := Nat.testBit_one_eq_true_iff_self_eq_zero.mp h'
        omega
      · left; exact h
  obtain ⟨o, q, g1, g2, g3, hle, g4⟩ := ranges_spec hb ptrRanges cpRanges none none ranges_ok (by rw [head_ptr]; simpa using h0) (by rw [last_ptr]; simpa using h1)
  have hp7 : q + (cp - o) ≠ 7457 := by
    intro e
    rw [e, range_7457] at g3
    simp only [Option.some.injEq, Prod.mk.injEq] at g3
    have : cp = 0x1E3F := by omega
    subst this
    have := pointer_1E3F
    rw [hp] at this
    cases this
  have hq : o + (q + (cp - o) - q) = cp := by omega
  refine ⟨q + (cp - o), hle, ?_, ?_⟩
  · unfold rangesPointer
    rw [if_neg e7, g1]
    dsimp only
    rw [Nat.mod_eq_of_lt (by omega)]
  · unfold rangesCodePoint
    rw [if_neg (by omega), if_neg hp7, g3]
    dsimp only
    rw [hq, Nat.mod_eq_of_lt (by omega)]

theorem rangeOf_none {k : Nat} : ∀ (l : List (Nat × Nat)) (prev : Option (Nat × Nat)), (∀ e ∈ l, e.1 < k) →
    rangeOf k prev l = none
  | [], _, _ => rfl
  | e :: l, prev, h => by
    rw [rangeOf, if_pos (h e (by simp))]
    exact rangeOf_none l _ (fun x hx => h x (by simp [hx]))

theorem ptr_keys : ∀ e ∈ ptrRanges, e.1 ≤ 65536 := by decide +kernel

theorem gb_keys {k : Nat} (hk : k < ptr0Gb18030.size) : ptr0Gb18030.get k < 0x10000 := by
  have := below (f := fun k => Nat.blt (ptr0Gb18030.get k) 0x10000) (n := ptr0Gb18030.size) (d := 15)
    (by decide +kernel) (by decide) k hk
  simpa [Nat.blt_eq] using this

theorem pointer_bmp {c p : Nat} (h : Verif.Model.Table.pointer ptr0Gb18030 ptr1Gb18030 c = some p) : c < 0x10000 := by
  obtain ⟨k, hk, rfl, _⟩ := pointer_entry h
  exact gb_keys hk

theorem pointer_none {c : Nat} (h : 0x10000 ≤ c) : Verif.Model.Table.pointer ptr0Gb18030 ptr1Gb18030 c = none := by
  cases hp : Verif.Model.Table.pointer ptr0Gb18030 ptr1Gb18030 c with
  | none => rfl
  | some p => have := pointer_bmp hp; omega

/-- Beyond U+10000 the look-up runs off the end of the map. -/
theorem gb_beyond {c : Nat} (h : 0x10000 < c) : gbE false () (.val c) = none := by
  have e : rangesPointer c = none := by
    unfold rangesPointer
    rw [if_neg (by omega), rangeOf_none ptrRanges none (fun e he => by have := ptr_keys e he; omega)]
  simp only [gbE]
  rw [if_neg (by omega), if_neg (by omega), if_neg (by simp), pointer_none (by omega)]
  simp only [Bool.false_eq_true, if_false, e]

/-- Every scalar value below U+10000 but U+E5E5 is written in one, two or four bytes, which the decoder reads back. -/
theorem gb_bmp {c : Nat} (h1 : c < 0x10000) (hs : ¬ (0xD800 ≤ c ∧ c ≤ 0xDFFF)) (he : c ≠ 0xE5E5) :
    ∃ bs, gbE false () (.val c) = some (.bytes bs, (), []) ∧ Codes gbD GbD.init bs c ∧ bs.length ≤ 4 := by
  simp only [gbE]
  by_cases h0 : c ≤ 0x7F
  · rw [if_pos h0]
    exact ⟨_, rfl, gb_ascii h0, by simp⟩
  rw [if_neg h0, if_neg he, if_neg (by simp)]
  cases hp : Verif.Model.Table.pointer ptr0Gb18030 ptr1Gb18030 c with
  | some p => exact ⟨_, rfl, gb_two hp, by simp⟩
  | none =>
    obtain ⟨p, g1, g2, g3⟩ := ranges_roundtrip (by omega) h1 hs he hp
    simp only [Bool.false_eq_true, if_false, g2]
    exact ⟨_, rfl, gb_four g1 g3, by simp⟩

theorem gb_codes {c : Nat} {bs : List Nat} (h : gbE false () (.val c) = some (.bytes bs, (), []))
    (hs : ¬ (0xD800 ≤ c ∧ c ≤ 0xDFFF)) (hn : c ≠ 0x10000) : Codes gbD GbD.init bs c := by
  by_cases hc : 0x10000 < c
  · rw [gb_beyond hc] at h; cases h
  by_cases he : c = 0xE5E5
  · subst he
    simp [gbE] at h
  obtain ⟨bs', e, k, _⟩ := gb_bmp (by omega) hs he
  rw [e] at h
  cases h
  exact k

end Verif.Proof.GbRanges
