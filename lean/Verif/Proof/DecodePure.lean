import Verif.Proof.DecodeAll
import Verif.Proof.TablesScalar
/- Every decoder emits scalar values only. -/
namespace Verif.Proof.DecodePure
open Verif.Model.Coder Verif.Model.Table Verif.Model.Tables Verif.Model.Legacy Verif.Spec Verif.Proof.Tables
open Verif.Proof.Utf8Coder Verif.Proof.StreamCoders Verif.Proof.DecodeAll

theorem clean1 {c : Nat} (h : IsScalar c) : Clean (.points [c]) := by
  intro x hx
  rw [List.mem_singleton] at hx
  exact hx ▸ h

theorem clean2 {c d : Nat} (h : IsScalar c) (h' : IsScalar d) : Clean (.points [c, d]) := by
  intro x hx
  simp only [List.mem_cons, List.not_mem_nil, or_false] at hx
  rcases hx with rfl | rfl
  · exact h
  · exact h'

/-- Takes one step of a decoder apart. -/
macro "parts" h:ident : tactic => `(tactic|
  (repeat' split at $h:ident
   all_goals cases $h:ident))

/-- Closes what is left of a step of a decoder with a table. -/
macro "emits" t:term : tactic => `(tactic| first
  | exact trivial
  | (refine clean1 ?_; exact $t _ _ (by assumption))
  | (refine clean1 ?_; exact Or.inl (by omega))
  | (refine clean1 ?_; exact Or.inr (by omega))
  | (refine clean2 ?_ ?_ <;> exact Or.inl (by omega)))

theorem single {t : Table} (ht : Scalars t) : Pure (singleD t) (fun _ => True) := by
  intro st v r st' pre _ h
  simp only [singleD] at h
  parts h
  all_goals refine ⟨trivial, ?_⟩; emits ht

theorem user : Pure userDefinedD (fun _ => True) := by
  intro st v r st' pre _ h
  simp only [userDefinedD] at h
  parts h
  all_goals refine ⟨trivial, ?_⟩
  · refine clean1 ?_; exact Or.inl (by omega)
  · refine clean1 ?_; exact Or.inr (by omega)

theorem kr : Pure eucKrD (fun _ => True) := by
  intro st v r st' pre _ h
  simp only [eucKrD] at h
  split at h
  · cases hp : ((if 0x41 ≤ v % 256 ∧ v % 256 ≤ 0xFE then some (((st - 0x81) * 190 + (v % 256 - 0x41)) % 65536) else none :
        Option Nat).bind (codePoint cpEucKr)) with
    | none =>
      rw [hp] at h
      simp only [Option.some.injEq, Prod.mk.injEq] at h
      obtain ⟨rfl, rfl, rfl⟩ := h
      exact ⟨trivial, trivial⟩
    | some cp =>
      rw [hp] at h
      simp only [Option.some.injEq, Prod.mk.injEq] at h
      obtain ⟨rfl, rfl, rfl⟩ := h
      obtain ⟨p, _, hp⟩ := Option.bind_eq_some_iff.mp hp
      exact ⟨trivial, clean1 (scalars_cpEucKr _ _ hp)⟩
  · parts h
    all_goals refine ⟨trivial, ?_⟩; emits scalars_cpEucKr

theorem big5 : Pure big5D (fun _ => True) := by
  intro st v r st' pre _ h
  simp only [big5D] at h
  parts h
  all_goals refine ⟨trivial, ?_⟩; emits scalars_cpBig5

theorem sjis : Pure sjisD (fun _ => True) := by
  intro st v r st' pre _ h
  simp only [sjisD] at h
  parts h
  all_goals refine ⟨trivial, ?_⟩; emits scalars_cpJis0208

theorem eucJp : Pure eucJpD (fun _ => True) := by
  intro st v r st' pre _ h
  simp only [eucJpD] at h
  parts h
  all_goals refine ⟨trivial, ?_⟩
  all_goals first | emits scalars_cpJis0208 | skip
  rename_i hc
  split at hc
  · refine clean1 ?_
    cases hf : st.flag with
    | true => rw [hf, if_pos rfl] at hc; exact scalars_cpJis0212 _ _ hc
    | false => rw [hf, if_neg (by simp)] at hc; exact scalars_cpJis0208 _ _ hc
  · cases hc

theorem jp : Pure jpD (fun _ => True) := by
  intro st v r st' pre _ h
  cases hs : st.state
  all_goals
    simp only [jpD, hs] at h
    parts h
  all_goals refine ⟨trivial, ?_⟩; emits scalars_cpJis0208

/-- The surrogate kept is a leading one. -/
def U16 (s : Utf16D) : Prop := ∀ x, s.surrogate = some x → 0xD800 ≤ x ∧ x ≤ 0xDBFF

theorem utf16 (be : Bool) : Pure (utf16D be) U16 := by
  intro st v r st' pre hk h
  obtain ⟨l, s⟩ := st
  cases l with
  | none =>
    simp only [utf16D] at h
    simp only [Option.some.injEq, Prod.mk.injEq] at h
    obtain ⟨rfl, rfl, rfl⟩ := h
    exact ⟨hk, trivial⟩
  | some l =>
    cases s with
    | none =>
      simp only [utf16D] at h
      generalize hu : (if be = true then (l <<< 8 + v % 256) % 65536 else ((v % 256) <<< 8 + l) % 65536) = u at h
      have hu : u < 65536 := by subst hu; split <;> exact Nat.mod_lt _ (by decide)
      parts h
      · refine ⟨fun x hx => ?_, trivial⟩
        cases hx
        omega
      · exact ⟨fun x hx => by simp at hx, trivial⟩
      · refine ⟨fun x hx => by simp at hx, clean1 ?_⟩
        unfold IsScalar
        omega
    | some s =>
      have hs : 0xD800 ≤ s ∧ s ≤ 0xDBFF := hk s rfl
      simp only [utf16D] at h
      generalize (if be = true then (l <<< 8 + v % 256) % 65536 else ((v % 256) <<< 8 + l) % 65536) = u at h
      by_cases hu : 0xDC00 ≤ u ∧ u ≤ 0xDFFF
      · rw [if_pos hu] at h
        simp only [Option.some.injEq, Prod.mk.injEq] at h
        obtain ⟨rfl, rfl, rfl⟩ := h
        refine ⟨fun x hx => by simp at hx, clean1 (Or.inr ?_)⟩
        rw [Nat.shiftLeft_eq]
        omega
      · rw [if_neg hu] at h
        simp only [Option.some.injEq, Prod.mk.injEq] at h
        obtain ⟨rfl, rfl, rfl⟩ := h
        exact ⟨fun x hx => by simp at hx, trivial⟩

/-- What the UTF-8 decoder has accumulated. -/
def U8 (s : Utf8D) : Prop :=
  (s.needed = 0 ∧ s.seen = 0 ∧ s.lower = 0x80 ∧ s.upper = 0xBF) ∨
  (s.needed = 1 ∧ s.seen = 0 ∧ s.cp < 0x20) ∨
  (s.needed = 2 ∧ s.seen = 0 ∧ s.cp < 0x10 ∧ s.lower ≤ 0xBF ∧ 0x80 ≤ s.lower ∧ s.upper ≤ 0xBF ∧ (s.cp = 0xD → s.upper = 0x9F)) ∨
  (s.needed = 2 ∧ s.seen = 1 ∧ s.cp < 0x400 ∧ ¬ (0x360 ≤ s.cp ∧ s.cp < 0x380)) ∨
  (s.needed = 3 ∧ s.seen = 0 ∧ s.cp ≤ 4 ∧ 0x80 ≤ s.lower ∧ s.upper ≤ 0xBF ∧ (s.cp = 0 → s.lower = 0x90) ∧
    (s.cp = 4 → s.upper = 0x8F)) ∨
  (s.needed = 3 ∧ s.seen = 1 ∧ 0x10 ≤ s.cp ∧ s.cp < 0x110) ∨
  (s.needed = 3 ∧ s.seen = 2 ∧ 0x400 ≤ s.cp ∧ s.cp < 0x4400)

theorem and1F (b : Nat) : b &&& 0x1F = b % 32 := Nat.and_two_pow_sub_one_eq_mod b 5
theorem andF (b : Nat) : b &&& 0xF = b % 16 := Nat.and_two_pow_sub_one_eq_mod b 4
theorem and7 (b : Nat) : b &&& 0x7 = b % 8 := Nat.and_two_pow_sub_one_eq_mod b 3

theorem utf8 : Pure utf8D U8 := by
  intro st v r st' pre hk h
  obtain ⟨cp, seen, needed, lower, upper⟩ := st
  have hb : v % 256 < 256 := Nat.mod_lt _ (by decide)
  simp only [utf8D, acc_eq, and1F, andF, and7] at h
  generalize v % 256 = b at h hb
  unfold U8 at hk
  dsimp only at hk
  by_cases h0 : needed = 0
  · subst h0
    obtain ⟨rfl, rfl, rfl⟩ : seen = 0 ∧ lower = 0x80 ∧ upper = 0xBF := by omega
    rw [if_pos rfl] at h
    by_cases c1 : b ≤ 0x7F
    · rw [if_pos c1] at h
      simp only [Option.some.injEq, Prod.mk.injEq] at h
      obtain ⟨rfl, rfl, rfl⟩ := h
      refine ⟨Or.inl ⟨rfl, rfl, rfl, rfl⟩, clean1 ?_⟩; exact Or.inl (by omega)
    rw [if_neg c1] at h
    by_cases c2 : 0xC2 ≤ b ∧ b ≤ 0xDF
    · rw [if_pos c2] at h
      simp only [Option.some.injEq, Prod.mk.injEq] at h
      obtain ⟨rfl, rfl, rfl⟩ := h
      exact ⟨Or.inr (Or.inl ⟨rfl, rfl, Nat.mod_lt _ (by decide)⟩), trivial⟩
    rw [if_neg c2] at h
    by_cases c3 : 0xE0 ≤ b ∧ b ≤ 0xEF
    · rw [if_pos c3] at h
      simp only [Option.some.injEq, Prod.mk.injEq] at h
      obtain ⟨rfl, rfl, rfl⟩ := h
      refine ⟨Or.inr (Or.inr (Or.inl ⟨rfl, rfl, Nat.mod_lt _ (by decide), ?_, ?_, ?_, ?_⟩)), trivial⟩
      · dsimp only; split <;> omega
      · dsimp only; split <;> omega
      · dsimp only; split <;> omega
      · dsimp only; intro; rw [if_pos (by omega)]
    rw [if_neg c3] at h
    by_cases c4 : 0xF0 ≤ b ∧ b ≤ 0xF4
    · rw [if_pos c4] at h
      simp only [Option.some.injEq, Prod.mk.injEq] at h
      obtain ⟨rfl, rfl, rfl⟩ := h
      refine ⟨Or.inr (Or.inr (Or.inr (Or.inr (Or.inl ⟨rfl, rfl, ?_, ?_, ?_, ?_, ?_⟩)))), trivial⟩
      · dsimp only; omega
      · dsimp only; split <;> omega
      · dsimp only; split <;> omega
      · dsimp only; intro; rw [if_pos (by omega)]
      · dsimp only; intro; rw [if_pos (by omega)]
    rw [if_neg c4] at h
    simp only [Option.some.injEq, Prod.mk.injEq] at h
    obtain ⟨rfl, rfl, rfl⟩ := h
    exact ⟨Or.inl ⟨rfl, rfl, rfl, rfl⟩, trivial⟩
  · rw [if_neg h0] at h
    by_cases c1 : lower ≤ b ∧ b ≤ upper
    · rw [if_neg (by simpa using c1)] at h
      by_cases c2 : seen + 1 ≠ needed
      · rw [if_pos c2] at h
        simp only [Option.some.injEq, Prod.mk.injEq] at h
        obtain ⟨rfl, rfl, rfl⟩ := h
        refine ⟨?_, trivial⟩
        rcases hk with hk | hk | hk | hk | hk | hk | hk
        · omega
        · omega
        · obtain ⟨rfl, rfl, k⟩ := hk
          refine Or.inr (Or.inr (Or.inr (Or.inl ⟨rfl, rfl, ?_, ?_⟩))) <;> dsimp only <;> omega
        · omega
        · obtain ⟨rfl, rfl, k⟩ := hk
          refine Or.inr (Or.inr (Or.inr (Or.inr (Or.inr (Or.inl ⟨rfl, rfl, ?_, ?_⟩))))) <;> dsimp only <;> omega
        · obtain ⟨rfl, rfl, k⟩ := hk
          refine Or.inr (Or.inr (Or.inr (Or.inr (Or.inr (Or.inr ⟨rfl, rfl, ?_, ?_⟩))))) <;> dsimp only <;> omega
        · omega
      · rw [if_neg c2] at h
        simp only [Option.some.injEq, Prod.mk.injEq] at h
        obtain ⟨rfl, rfl, rfl⟩ := h
        refine ⟨Or.inl ⟨rfl, rfl, rfl, rfl⟩, clean1 ?_⟩
        unfold IsScalar
        rcases hk with hk | hk | hk | hk | hk | hk | hk <;> omega
    · rw [if_pos c1] at h
      simp only [Option.some.injEq, Prod.mk.injEq] at h
      obtain ⟨rfl, rfl, rfl⟩ := h
      exact ⟨Or.inl ⟨rfl, rfl, rfl, rfl⟩, trivial⟩

/-! ### gb18030 -/

/-- Ranges that hold no surrogates. -/
def clear : List (Nat × Nat) → Bool
  | (q, o) :: (q2, o2) :: cs =>
    (Nat.ble (o + (q2 - q)) 0xD800 || Nat.ble 0xE000 o) && (Nat.ble o 0x10000 && Nat.blt q q2) && clear ((q2, o2) :: cs)
  | [(_, o)] => Nat.ble o 0x10000 && Nat.ble 0xE000 o
  | [] => true

theorem rangeOf_clear {k : Nat} : ∀ (cs : List (Nat × Nat)) (prev : Option (Nat × Nat)), clear (prev.toList ++ cs) = true →
    (∀ x ∈ prev, x.1 < k) → ∀ q o, rangeOf k prev cs = some (q, o) →
    q ≤ k ∧ o ≤ 0x10000 ∧ (o + (k - q) < 0xD800 ∨ 0xE000 ≤ o + (k - q)) := by
  intro cs
  induction cs with
  | nil => intro prev _ _ q o h; simp [rangeOf] at h
  | cons e es ih =>
    obtain ⟨q1, o1⟩ := e
    intro prev hc hp q o h
    have hc' : clear ((q1, o1) :: es) = true := by
      cases prev with
      | none => exact hc
      | some x =>
        obtain ⟨a, b⟩ := x
        simp only [Option.toList, List.cons_append, List.nil_append, clear, Bool.and_eq_true] at hc
        exact hc.2
    rw [rangeOf] at h
    dsimp only at h
    split at h
    · rename_i hlt
      exact ih (some (q1, o1)) hc' (by simpa using hlt) q o h
    · rename_i hge
      split at h
      · rename_i he
        cases h
        cases es with
        | nil =>
          simp only [clear, Bool.and_eq_true] at hc'
          have := Nat.le_of_ble_eq_true hc'.1
          have := Nat.le_of_ble_eq_true hc'.2
          omega
        | cons e2 es =>
          obtain ⟨q2, o2⟩ := e2
          simp only [clear, Bool.and_eq_true, Bool.or_eq_true] at hc'
          have h1 := Nat.le_of_ble_eq_true hc'.1.2.1
          have h1' := hc'.1.2.2
          rw [Nat.blt_eq] at h1'
          refine ⟨by omega, h1, ?_⟩
          rcases hc'.1.1 with h2 | h2
          · have h2 := Nat.le_of_ble_eq_true h2; omega
          · have h2 := Nat.le_of_ble_eq_true h2; omega
      · subst h
        have hq : q < k := hp (q, o) rfl
        simp only [Option.toList, List.cons_append, List.nil_append, clear, Bool.and_eq_true, Bool.or_eq_true] at hc
        have h1 := Nat.le_of_ble_eq_true hc.1.2.1
        refine ⟨by omega, h1, ?_⟩
        rcases hc.1.1 with h2 | h2
        · have h2 := Nat.le_of_ble_eq_true h2; omega
        · have h2 := Nat.le_of_ble_eq_true h2; omega

theorem clear_cp : clear cpRanges = true := by decide +kernel

theorem rangeOf_none {k : Nat} : ∀ (cs : List (Nat × Nat)) (prev : Option (Nat × Nat)), (∀ x ∈ cs, x.1 < k) →
    rangeOf k prev cs = none := by
  intro cs
  induction cs with
  | nil => intro prev _; rfl
  | cons e es ih =>
    intro prev h
    rw [rangeOf, if_pos (h e (by simp))]
    exact ih _ (fun x hx => h x (by simp [hx]))

theorem rangeOf_some {k : Nat} : ∀ (cs : List (Nat × Nat)) (prev : Option (Nat × Nat)), (∃ x ∈ cs, k ≤ x.1) →
    (prev ≠ none ∨ ∀ x ∈ cs.head?, x.1 ≤ k) → rangeOf k prev cs ≠ none := by
  intro cs
  induction cs with
  | nil => intro prev h; simp at h
  | cons e es ih =>
    intro prev ⟨x, hx, hk⟩ hp
    rw [rangeOf]
    split
    · rename_i hlt
      refine ih _ ?_ (Or.inl (by simp))
      rcases List.mem_cons.mp hx with rfl | hx
      · omega
      · exact ⟨x, hx, hk⟩
    · split
      · simp
      · rcases hp with hp | hp
        · exact hp
        · have := hp e rfl; omega

theorem last_key : ∀ x ∈ cpRanges, x.1 ≤ 189000 := by decide +kernel
theorem has_key : (189000, 65536) ∈ cpRanges := by decide +kernel
theorem first_key : ∀ x ∈ cpRanges.head?, x.1 ≤ 0 := by decide +kernel

theorem ranges_beyond {p : Nat} (h : 189000 < p) (h2 : p ≤ 1237575) : rangesCodePoint p = none := by
  unfold rangesCodePoint
  rw [if_neg (by omega), if_neg (by omega), rangeOf_none]
  intro x hx
  have := last_key x hx
  omega

theorem ranges_defined {p : Nat} (h : ¬ (189000 < p ∧ p ≤ 1237575)) : rangesCodePoint p ≠ none := by
  unfold rangesCodePoint
  split
  · simp
  · split
    · simp
    · have : rangeOf p none cpRanges ≠ none :=
        rangeOf_some _ _ ⟨_, has_key, by omega⟩ (Or.inr fun x hx => by have := first_key x hx; omega)
      obtain ⟨⟨q, o⟩, e⟩ := Option.ne_none_iff_exists'.mp this
      rw [e]
      simp

theorem ranges_scalar {p cp : Nat} (h : rangesCodePoint p = some (some cp)) : IsScalar cp := by
  have hb : p ≤ 189000 := by
    by_contra hb
    by_cases h2 : p ≤ 1237575
    · rw [ranges_beyond (by omega) h2] at h; cases h
    · unfold rangesCodePoint at h; rw [if_pos (by omega)] at h; cases h
  unfold rangesCodePoint at h
  split at h
  · cases h
  · split at h
    · cases h; exact Or.inr (by decide)
    · cases hr : rangeOf p none cpRanges with
      | none => rw [hr] at h; cases h
      | some x =>
        obtain ⟨q, o⟩ := x
        rw [hr] at h
        simp only [Option.some.injEq] at h
        obtain ⟨h1, h2, h3⟩ := rangeOf_clear cpRanges none clear_cp (by simp) q o hr
        unfold IsScalar
        omega

theorem gb : Pure gbD (fun _ => True) := by
  intro st v r st' pre _ h
  refine ⟨trivial, ?_⟩
  simp only [gbD] at h
  by_cases h3 : st.third ≠ 0
  · rw [if_pos h3] at h
    split at h
    · simp only [Option.some.injEq, Prod.mk.injEq] at h
      obtain ⟨rfl, rfl, rfl⟩ := h
      exact trivial
    · split at h
      · cases h
      · simp only [Option.some.injEq, Prod.mk.injEq] at h
        obtain ⟨rfl, rfl, rfl⟩ := h
        exact trivial
      · rename_i hc
        simp only [Option.some.injEq, Prod.mk.injEq] at h
        obtain ⟨rfl, rfl, rfl⟩ := h
        exact clean1 (ranges_scalar hc)
  · rw [if_neg h3] at h
    by_cases h2 : st.second ≠ 0
    · rw [if_pos h2] at h
      parts h <;> exact trivial
    · rw [if_neg h2] at h
      by_cases h1 : st.first ≠ 0
      · rw [if_pos h1] at h
        split at h
        · simp only [Option.some.injEq, Prod.mk.injEq] at h
          obtain ⟨rfl, rfl, rfl⟩ := h
          exact trivial
        · split at h
          · rename_i hp
            simp only [Option.some.injEq, Prod.mk.injEq] at h
            obtain ⟨rfl, rfl, rfl⟩ := h
            obtain ⟨p, _, hp⟩ := Option.bind_eq_some_iff.mp hp
            exact clean1 (scalars_cpGb18030 _ _ hp)
          · simp only [Option.some.injEq, Prod.mk.injEq] at h
            obtain ⟨rfl, rfl, rfl⟩ := h
            exact trivial
      · rw [if_neg h1] at h
        parts h
        all_goals emits scalars_cpGb18030

/-- A decoder that emits scalar values only. -/
def Emits (c : Coder) : Prop := ∃ K, Pure c.run K ∧ K c.init

theorem emits_single {t : Table} (ht : Scalars t) : Emits ⟨Unit, (), singleD t⟩ := ⟨_, single ht, trivial⟩

/-- Every decoder that can be constructed. -/
theorem all (e : Enc) (he : e ≠ .replacement) : Emits (decoderOf e) := by
  cases e with
  | replacement => exact absurd rfl he
  | UTF_8 => exact ⟨_, utf8, Or.inl ⟨rfl, rfl, rfl, rfl⟩⟩
  | GBK => exact ⟨_, gb, trivial⟩
  | gb18030 => exact ⟨_, gb, trivial⟩
  | Big5 => exact ⟨_, big5, trivial⟩
  | EUC_JP => exact ⟨_, eucJp, trivial⟩
  | ISO_2022_JP => exact ⟨_, jp, trivial⟩
  | Shift_JIS => exact ⟨_, sjis, trivial⟩
  | EUC_KR => exact ⟨_, kr, trivial⟩
  | UTF_16BE => exact ⟨_, utf16 true, fun x hx => by cases hx⟩
  | UTF_16LE => exact ⟨_, utf16 false, fun x hx => by cases hx⟩
  | x_user_defined => exact ⟨_, user, trivial⟩
  | IBM866 => simp only [decoderOf]; exact emits_single scalars_cpIbm866
  | ISO_8859_2 => simp only [decoderOf]; exact emits_single scalars_cpIso88592
  | ISO_8859_3 => simp only [decoderOf]; exact emits_single scalars_cpIso88593
  | ISO_8859_4 => simp only [decoderOf]; exact emits_single scalars_cpIso88594
  | ISO_8859_5 => simp only [decoderOf]; exact emits_single scalars_cpIso88595
  | ISO_8859_6 => simp only [decoderOf]; exact emits_single scalars_cpIso88596
  | ISO_8859_7 => simp only [decoderOf]; exact emits_single scalars_cpIso88597
  | ISO_8859_8 => simp only [decoderOf]; exact emits_single scalars_cpIso88598
  | ISO_8859_8_I => simp only [decoderOf]; exact emits_single scalars_cpIso88598
  | ISO_8859_10 => simp only [decoderOf]; exact emits_single scalars_cpIso885910
  | ISO_8859_13 => simp only [decoderOf]; exact emits_single scalars_cpIso885913
  | ISO_8859_14 => simp only [decoderOf]; exact emits_single scalars_cpIso885914
  | ISO_8859_15 => simp only [decoderOf]; exact emits_single scalars_cpIso885915
  | ISO_8859_16 => simp only [decoderOf]; exact emits_single scalars_cpIso885916
  | KOI8_R => simp only [decoderOf]; exact emits_single scalars_cpKoi8R
  | KOI8_U => simp only [decoderOf]; exact emits_single scalars_cpKoi8U
  | macintosh => simp only [decoderOf]; exact emits_single scalars_cpMacintosh
  | windows_874 => simp only [decoderOf]; exact emits_single scalars_cpWindows874
  | windows_1250 => simp only [decoderOf]; exact emits_single scalars_cpWindows1250
  | windows_1251 => simp only [decoderOf]; exact emits_single scalars_cpWindows1251
  | windows_1252 => simp only [decoderOf]; exact emits_single scalars_cpWindows1252
  | windows_1253 => simp only [decoderOf]; exact emits_single scalars_cpWindows1253
  | windows_1254 => simp only [decoderOf]; exact emits_single scalars_cpWindows1254
  | windows_1255 => simp only [decoderOf]; exact emits_single scalars_cpWindows1255
  | windows_1256 => simp only [decoderOf]; exact emits_single scalars_cpWindows1256
  | windows_1257 => simp only [decoderOf]; exact emits_single scalars_cpWindows1257
  | windows_1258 => simp only [decoderOf]; exact emits_single scalars_cpWindows1258
  | x_mac_cyrillic => simp only [decoderOf]; exact emits_single scalars_cpXMacCyrillic

end Verif.Proof.DecodePure
