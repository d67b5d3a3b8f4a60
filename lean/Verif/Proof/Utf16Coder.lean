import Verif.Proof.Utf8Report
/- The UTF-16 decoder on sequences of code units. -/
namespace Verif.Proof.Utf16Coder
open Verif.Model.Coder Verif.Spec Verif.Proof.CoderRun Verif.Proof.Utf8Forms Verif.Proof.Utf8Coder

/-- What is read again in place of the code unit `v` that does not continue a surrogate pair. -/
def cut (v : Nat) : Nat := (if v > 8 then 256 else 0) + v % 256

/-- Reports of the library's decoder. -/
inductive Lib : List Nat → List (Option Nat) → Prop
  | nil : Lib [] []
  | unit {u : Nat} {us : List Nat} {o : List (Option Nat)} : u < 0xD800 ∨ (0xE000 ≤ u ∧ u < 0x10000) →
      Lib us o → Lib (u :: us) (some u :: o)
  | pair {u v : Nat} {us : List Nat} {o : List (Option Nat)} : 0xD800 ≤ u → u ≤ 0xDBFF → 0xDC00 ≤ v → v ≤ 0xDFFF →
      Lib us o → Lib (u :: v :: us) (some (0x10000 + (u - 0xD800) * 1024 + (v - 0xDC00)) :: o)
  | trail {u : Nat} {us : List Nat} {o : List (Option Nat)} : 0xDC00 ≤ u → u ≤ 0xDFFF →
      Lib us o → Lib (u :: us) (none :: o)
  | last {u : Nat} : 0xD800 ≤ u → u ≤ 0xDBFF → Lib [u] [none]
  | lead {u v : Nat} {us : List Nat} {o : List (Option Nat)} : 0xD800 ≤ u → u ≤ 0xDBFF → ¬ (0xDC00 ≤ v ∧ v ≤ 0xDFFF) →
      Lib us o → Lib (u :: v :: us) (none :: some (cut v) :: o)

def first (be : Bool) (u : Nat) : Nat := if be then u / 256 else u % 256
def second (be : Bool) (u : Nat) : Nat := if be then u % 256 else u / 256

theorem bytes_cons (be : Bool) (u : Nat) (us : List Nat) :
    utf16Bytes be (u :: us) = first be u :: second be u :: utf16Bytes be us := by
  cases be <;> simp [utf16Bytes, first, second]

theorem run_first (be : Bool) {u : Nat} (hu : u < 65536) (sg : Option Nat) :
    utf16D be ⟨none, sg⟩ (.val (first be u)) = some (.cont, ⟨some (first be u), sg⟩, []) := by
  have : first be u % 256 = first be u := by unfold first; cases be <;> simp <;> omega
  simp [utf16D, this]

theorem unit_eq (be : Bool) {u : Nat} (hu : u < 65536) :
    (if be then (((first be u) <<< 8) + second be u % 256) % 65536 else ((second be u % 256) <<< 8 + first be u) % 65536) = u := by
  cases be <;> simp only [first, second, if_true, if_false, Bool.false_eq_true, Nat.shiftLeft_eq] <;> omega

theorem run_second_none (be : Bool) {u : Nat} (hu : u < 65536) :
    utf16D be ⟨some (first be u), none⟩ (.val (second be u)) =
      if 0xD800 ≤ u ∧ u ≤ 0xDBFF then some (.cont, ⟨none, some u⟩, [])
      else if 0xDC00 ≤ u ∧ u ≤ 0xDFFF then some (.err, ⟨none, none⟩, [])
      else some (.points [u], ⟨none, none⟩, []) := by
  simp only [utf16D]
  rw [unit_eq be hu]

theorem run_second_some (be : Bool) {u v : Nat} (hv : v < 65536) :
    utf16D be ⟨some (first be v), some u⟩ (.val (second be v)) =
      if 0xDC00 ≤ v ∧ v ≤ 0xDFFF then
        some (.points [(0x10000 + ((u - 0xD800) <<< 10) + (v - 0xDC00)) % 2 ^ 32], ⟨none, none⟩, [])
      else some (.err, ⟨none, none⟩, [.val (first be (cut v)), .val (second be (cut v))]) := by
  have h : v &&& 0xFF = v % 256 := Nat.and_two_pow_sub_one_eq_mod v 8
  have h1 : cut v / 256 = if v > 8 then 1 else 0 := by unfold cut; split <;> omega
  have h2 : cut v % 256 = v % 256 := by unfold cut; split <;> omega
  have h3 : (if be then [Item.val (if v > 8 then 1 else 0), .val (v &&& 0xFF)]
      else [Item.val (v &&& 0xFF), .val (if v > 8 then 1 else 0)]) =
      [.val (first be (cut v)), .val (second be (cut v))] := by
    rw [h]; cases be <;> simp [first, second, h1, h2]
  simp only [utf16D]
  rw [unit_eq be hv, h3]

theorem decode_whole (be : Bool) : ∀ (n : Nat) (us : List Nat), us.length ≤ n → (∀ u ∈ us, u < 65536) →
    ∃ rs s', Whole (utf16D be) ⟨none, none⟩ (qq (utf16Bytes be us)) rs s' (qq []) ∧ Lib us (report rs) ∧
      rs.length ≤ 4 * us.length := by
  intro n
  induction n with
  | zero =>
    intro us hl _
    obtain rfl := List.length_eq_zero_iff.1 (Nat.le_zero.1 hl)
    exact ⟨[], ⟨none, none⟩, ⟨⟨none, none⟩, qq [], .eoq, qq [], [], .nil _ _, read_nil, rfl, rfl⟩, .nil, by simp⟩
  | succ n ih =>
    intro us hl hb
    cases us with
    | nil => exact ih [] (by simp) hb
    | cons u us =>
      have hu : u < 65536 := hb u (by simp)
      have hus : ∀ x ∈ us, x < 65536 := fun x hx => hb x (by simp [hx])
      simp only [List.length_cons] at hl
      have e2 := run_second_none be hu
      rw [bytes_cons]
      by_cases h1 : 0xD800 ≤ u ∧ u ≤ 0xDBFF
      · rw [if_pos h1] at e2
        cases us with
        | nil =>
          refine ⟨[.cont, .cont, .err], ⟨none, none⟩, ⟨⟨none, none⟩, qq [], .eoq, qq [], [], ?_, read_nil, rfl, rfl⟩,
            .last h1.1 h1.2, by simp⟩
          refine .step (read_cons _ _) (run_first be hu none) (by simp) ?_
          refine .step (read_cons _ _) e2 (by simp) ?_
          exact .step read_nil rfl (by simp [Res.err]) (.nil _ _)
        | cons v us =>
          have hv : v < 65536 := hus v (by simp)
          obtain ⟨rs, s', ⟨a1, a2, a3, a4, a5, a6, a7, a8, a9⟩, i2, i3⟩ :=
            ih us (by simp only [List.length_cons] at hl; omega) fun x hx => hus x (by simp [hx])
          rw [bytes_cons]
          have e4 := run_second_some be (u := u) hv
          by_cases h2 : 0xDC00 ≤ v ∧ v ≤ 0xDFFF
          · have ev : (0x10000 + ((u - 0xD800) <<< 10) + (v - 0xDC00)) % 2 ^ 32 = 0x10000 + (u - 0xD800) * 1024 + (v - 0xDC00) := by
              rw [Nat.shiftLeft_eq]; omega
            rw [if_pos h2, ev] at e4
            refine ⟨.cont :: .cont :: .cont :: .points [0x10000 + (u - 0xD800) * 1024 + (v - 0xDC00)] :: rs, s',
              ⟨a1, a2, a3, a4, a5, ?_, a7, a8, a9⟩, .pair h1.1 h1.2 h2.1 h2.2 i2, ?_⟩
            · refine .step (read_cons _ _) (run_first be hu none) (by simp) ?_
              refine .step (read_cons _ _) e2 (by simp) ?_
              refine .step (read_cons _ _) (run_first be hv (some u)) (by simp) ?_
              exact .step (read_cons _ _) e4 (by simp) a6
            · simp only [List.length_cons]; omega
          · rw [if_neg h2] at e4
            have hc : cut v < 512 := by unfold cut; split <;> omega
            have hc16 : cut v < 65536 := by omega
            have e5 := run_second_none be hc16
            rw [if_neg (by omega), if_neg (by omega)] at e5
            refine ⟨.cont :: .cont :: .cont :: .err :: .cont :: .points [cut v] :: rs, s',
              ⟨a1, a2, a3, a4, a5, ?_, a7, a8, a9⟩, ?_, ?_⟩
            · refine .step (read_cons _ _) (run_first be hu none) (by simp) ?_
              refine .step (read_cons _ _) e2 (by simp) ?_
              refine .step (read_cons _ _) (run_first be hv (some u)) (by simp) ?_
              refine .step (read_cons _ _) e4 (by simp [Res.err]) ?_
              refine .step (q' := qq (second be (cut v) :: utf16Bytes be us)) rfl (run_first be hc16 none) (by simp) ?_
              exact .step (read_cons _ _) e5 (by simp) a6
            · exact .lead h1.1 h1.2 h2 i2
            · simp only [List.length_cons]; omega
      · rw [if_neg h1] at e2
        obtain ⟨rs, s', ⟨a1, a2, a3, a4, a5, a6, a7, a8, a9⟩, i2, i3⟩ := ih us (by omega) hus
        by_cases h2 : 0xDC00 ≤ u ∧ u ≤ 0xDFFF
        · rw [if_pos h2] at e2
          refine ⟨.cont :: .err :: rs, s', ⟨a1, a2, a3, a4, a5, ?_, a7, a8, a9⟩, .trail h2.1 h2.2 i2, ?_⟩
          · refine .step (read_cons _ _) (run_first be hu none) (by simp) ?_
            exact .step (read_cons _ _) e2 (by simp [Res.err]) a6
          · simp only [List.length_cons]; omega
        · rw [if_neg h2] at e2
          refine ⟨.cont :: .points [u] :: rs, s', ⟨a1, a2, a3, a4, a5, ?_, a7, a8, a9⟩, .unit (by omega) i2, ?_⟩
          · refine .step (read_cons _ _) (run_first be hu none) (by simp) ?_
            exact .step (read_cons _ _) e2 (by simp) a6
          · simp only [List.length_cons]; omega

/-- The reports are the standard's when every code unit behind an unpaired lead surrogate survives `cut`. -/
theorem lib_decodes {us : List Nat} {o : List (Option Nat)} (h : Lib us o)
    (hs : ∀ p u v r, us = p ++ u :: v :: r → 0xD800 ≤ u → u ≤ 0xDBFF → (0xDC00 ≤ v ∧ v ≤ 0xDFFF) ∨ v ≤ 8 ∨ (256 ≤ v ∧ v ≤ 511)) :
    Utf16Decodes us o := by
  induction h with
  | nil => exact .nil
  | @unit u us o hu _ ih =>
    have e : utf16 u = [u] := by unfold utf16; rw [if_pos (by omega)]
    have := Utf16Decodes.good (c := u) (by unfold IsScalar; omega)
      (ih fun p a b r he => hs (u :: p) a b r (by rw [he]; rfl))
    rwa [e] at this
  | @pair u v us o h1 h2 h3 h4 _ ih =>
    have e : utf16 (0x10000 + (u - 0xD800) * 1024 + (v - 0xDC00)) = [u, v] := by
      unfold utf16; rw [if_neg (by omega)]
      exact list2 (by omega) (by omega)
    have := Utf16Decodes.good (c := 0x10000 + (u - 0xD800) * 1024 + (v - 0xDC00)) (by unfold IsScalar; omega)
      (ih fun p a b r he => hs (u :: v :: p) a b r (by rw [he]; rfl))
    rwa [e] at this
  | @trail u us o h1 h2 _ ih =>
    exact .trail h1 h2 (ih fun p a b r he => hs (u :: p) a b r (by rw [he]; rfl))
  | last h1 h2 => exact .lead h1 h2 (by simp) .nil
  | @lead u v us o h1 h2 h3 _ ih =>
    refine .lead h1 h2 (fun a b e => by cases e; exact h3) ?_
    have hv := (hs [] u v us rfl h1 h2).resolve_left h3
    have ec : cut v = v := by unfold cut; split <;> omega
    rw [ec]
    have e : utf16 v = [v] := by unfold utf16; rw [if_pos (by omega)]
    have := Utf16Decodes.good (c := v) (by unfold IsScalar; omega)
      (ih fun p a b r he => hs (u :: v :: p) a b r (by rw [he]; rfl))
    rwa [e] at this

theorem lib_utf16s (s : List Nat) (h : ∀ c ∈ s, IsScalar c) : Lib (utf16s s) (s.map some) := by
  induction s with
  | nil => exact .nil
  | cons c s ih =>
    have ih := ih fun x hx => h x (by simp [hx])
    have hc := h c (by simp)
    unfold IsScalar at hc
    have : utf16s (c :: s) = utf16 c ++ utf16s s := by simp [utf16s]
    rw [this]
    by_cases h1 : c < 0x10000
    · have e : utf16 c = [c] := by unfold utf16; rw [if_pos h1]
      rw [e]; exact .unit (by omega) ih
    · have e : utf16 c = [0xD800 + (c - 0x10000) / 1024, 0xDC00 + (c - 0x10000) % 1024] := by
        unfold utf16; rw [if_neg h1]
      rw [e]
      have := Lib.pair (u := 0xD800 + (c - 0x10000) / 1024) (v := 0xDC00 + (c - 0x10000) % 1024)
        (by omega) (by omega) (by omega) (by omega) ih
      rwa [show 0x10000 + (0xD800 + (c - 0x10000) / 1024 - 0xD800) * 1024 +
        (0xDC00 + (c - 0x10000) % 1024 - 0xDC00) = c by omega] at this

theorem lib_unique {us : List Nat} {o o' : List (Option Nat)} (h : Lib us o) (h' : Lib us o') : o = o' := by
  induction h generalizing o' with
  | nil => cases h'; rfl
  | unit hu _ ih =>
    cases h' with
    | unit _ h => rw [ih h]
    | pair => omega
    | trail => omega
    | last => omega
    | lead => omega
  | pair h1 h2 h3 h4 _ ih =>
    cases h' with
    | unit => omega
    | pair _ _ _ _ h => rw [ih h]
    | trail => omega
    | lead _ _ h => exact absurd ⟨h3, h4⟩ h
  | trail h1 h2 _ ih =>
    cases h' with
    | unit => omega
    | pair => omega
    | trail _ _ h => rw [ih h]
    | last => omega
    | lead => omega
  | last h1 h2 =>
    cases h' with
    | unit => omega
    | trail => omega
    | last => rfl
  | lead h1 h2 h3 _ ih =>
    cases h' with
    | unit => omega
    | pair _ _ a b => exact absurd ⟨a, b⟩ h3
    | trail => omega
    | lead _ _ _ h => rw [ih h]

theorem utf16s_lt (s : List Nat) (h : ∀ c ∈ s, IsScalar c) : ∀ u ∈ utf16s s, u < 65536 := by
  intro u hu
  simp only [utf16s, List.mem_flatMap] at hu
  obtain ⟨c, hc, hu⟩ := hu
  have := h c hc
  unfold IsScalar at this
  unfold utf16 at hu
  split at hu
  · simp at hu; omega
  · simp at hu; omega

/-- Decoding code units in replacement mode and, when no error is reported, in fatal mode. -/
theorem decode_eq (be : Bool) (us : List Nat) (h : ∀ u ∈ us, u < 65536) : ∃ o, Lib us o ∧ ∀ fuel, 4 * us.length < fuel →
    (∃ s', processQueue false (utf16D be) .replacement fuel Utf16D.init (toQueue (utf16Bytes be us)) [] =
      .stop (.finished, s', [.eoq], outAt (points o) true)) ∧
    (none ∉ o → ∃ s', processQueue false (utf16D be) .fatal fuel Utf16D.init (toQueue (utf16Bytes be us)) [] =
      .stop (.finished, s', [.eoq], outAt (points o) true)) := by
  obtain ⟨rs, s', h1, h2, h3⟩ := decode_whole be us.length us (Nat.le_refl _) h
  refine ⟨report rs, h2, fun fuel hf => ⟨⟨s', ?_⟩, fun hn => ⟨s', ?_⟩⟩⟩
  · have := processQueue_whole (dec := false) (mode := .replacement) h1 (Or.inl (by decide)) fuel (by omega) [] false
    rw [outs_replacement_false] at this
    rw [toQueue_eq]; exact this
  · have hne : ∀ r ∈ rs, ∀ cp, r ≠ .error cp := fun r hr cp e => hn ((error_iff_report rs).1 ⟨r, hr, cp, e⟩)
    have := processQueue_whole (dec := false) (mode := .fatal) h1 (Or.inr hne) fuel (by omega) [] false
    rw [outs_fatal] at this
    rw [toQueue_eq]; exact this

end Verif.Proof.Utf16Coder
