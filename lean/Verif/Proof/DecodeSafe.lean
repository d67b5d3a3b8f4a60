import Verif.Proof.DecodePure
/- When a decoder fails an assertion. -/
namespace Verif.Proof.DecodeSafe
open Verif.Model.Coder Verif.Model.Table Verif.Model.Tables Verif.Model.Legacy Verif.Spec
open Verif.Proof.Utf8Coder Verif.Proof.CoderRun Verif.Proof.Stream Verif.Proof.StreamCoders Verif.Proof.StreamApi Verif.Proof.DecodeAll
open Verif.Proof.DecodePure

/-! ### Decoders without assertions -/

/-- No step fails. -/
def Total (c : Coder) : Prop := ∀ st i, c.run st i ≠ none

theorem total_single (t : Table) : Total ⟨Unit, (), singleD t⟩ := by
  intro st i
  cases i with
  | eoq => simp [singleD]
  | val v => simp only [singleD]; repeat' split
             all_goals simp

theorem total_user : Total ⟨Unit, (), userDefinedD⟩ := by
  intro st i
  cases i with
  | eoq => simp [userDefinedD]
  | val v => simp only [userDefinedD]; split <;> simp

theorem total_utf8 : Total ⟨Utf8D, .init, utf8D⟩ := by
  intro st i
  cases i <;> simp only [utf8D] <;> repeat' split
  all_goals simp

theorem total_utf16 (be : Bool) : Total ⟨Utf16D, .init, utf16D be⟩ := by
  intro st i
  cases i <;> simp only [utf16D] <;> repeat' split
  all_goals simp

theorem total_kr : Total ⟨Nat, 0, eucKrD⟩ := by
  intro st i
  cases i <;> simp only [eucKrD] <;> repeat' split
  all_goals simp

theorem total_sjis : Total ⟨Nat, 0, sjisD⟩ := by
  intro st i
  cases i <;> simp only [sjisD] <;> repeat' split
  all_goals simp

theorem total_big5 : Total ⟨Nat, 0, big5D⟩ := by
  intro st i
  cases i <;> simp only [big5D] <;> repeat' split
  all_goals simp

theorem total_eucJp : Total ⟨EucJpD, .init, eucJpD⟩ := by
  intro st i
  cases i <;> simp only [eucJpD] <;> repeat' split
  all_goals simp

/-- Every decoder but those of gb18030, GBK and ISO-2022-JP. -/
theorem total_all (e : Enc) (h1 : e ≠ .GBK) (h2 : e ≠ .gb18030) (h3 : e ≠ .ISO_2022_JP) (h4 : e ≠ .replacement) :
    Total (decoderOf e) := by
  cases e with
  | replacement => exact absurd rfl h4
  | UTF_8 => exact total_utf8
  | GBK => exact absurd rfl h1
  | gb18030 => exact absurd rfl h2
  | Big5 => exact total_big5
  | EUC_JP => exact total_eucJp
  | ISO_2022_JP => exact absurd rfl h3
  | Shift_JIS => exact total_sjis
  | EUC_KR => exact total_kr
  | UTF_16BE => exact total_utf16 true
  | UTF_16LE => exact total_utf16 false
  | x_user_defined => exact total_user
  | _ => simp only [decoderOf]; exact total_single _

/-! ### ISO-2022-JP -/

theorem jp_val (st : JpD) (v : Nat) : jpD st (.val v) ≠ none := by
  cases hs : st.state <;> simp only [jpD, hs] <;> repeat' split
  all_goals simp

/-- The bytes of an escape sequence begun, followed by what is left, are a suffix of the whole. -/
def JpJ (w : List Nat) (st : JpD) (b : List Nat) : Prop :=
  Set st.output ∧ b <:+ w ∧ (st.state = .escStart → 0x1B :: b <:+ w) ∧
    (st.state = .esc → (st.lead = 0x24 ∨ st.lead = 0x28) ∧ 0x1B :: st.lead :: b <:+ w)

theorem suf_tail {x : Nat} {b w : List Nat} (h : x :: b <:+ w) : b <:+ w := (List.suffix_cons x b).trans h

theorem mod_byte {w b : List Nat} {v : Nat} (hw : ∀ x ∈ w, x < 256) (h : v :: b <:+ w) : v % 256 = v :=
  Nat.mod_eq_of_lt (hw v (h.subset (by simp)))

theorem set_not {s : JpState} (h : Set s) : s ≠ .escStart ∧ s ≠ .esc := by
  rcases h with rfl | rfl | rfl | rfl <;> simp

theorem jp_keeps {w : List Nat} (hw : ∀ x ∈ w, x < 256) : Keeps jpD (JpJ w) := by
  intro st v b r st' pv hj h
  obtain ⟨j1, j2, j3, j4⟩ := hj
  have hv := mod_byte hw j2
  have none : ∀ {l : List Nat}, ([] : List Item) = l.map .val → l = [] := fun e => by simpa using e.symm
  have one : ∀ {l : List Nat} {a : Nat}, [Item.val a] = l.map .val → l = [a] := by
    intro l a e
    cases l with
    | nil => simp at e
    | cons x l =>
      simp only [List.map_cons, List.cons.injEq, Item.val.injEq] at e
      rw [none e.2, e.1]
  have two : ∀ {l : List Nat} {a c : Nat}, [Item.val a, Item.val c] = l.map .val → l = [a, c] := by
    intro l a c e
    cases l with
    | nil => simp at e
    | cons x l =>
      simp only [List.map_cons, List.cons.injEq, Item.val.injEq] at e
      rw [one e.2, e.1]
  cases hs : st.state with
  | escStart =>
    simp only [jpD, hs] at h
    split at h
    · simp only [Option.some.injEq, Prod.mk.injEq] at h
      obtain ⟨rfl, rfl, hp⟩ := h
      rw [none hp]
      rename_i hc
      exact ⟨j1, suf_tail j2, fun e => by simp at e, fun _ => ⟨hc, by dsimp only; rw [hv]; exact j3 hs⟩⟩
    · simp only [Option.some.injEq, Prod.mk.injEq] at h
      obtain ⟨rfl, rfl, hp⟩ := h
      rw [one hp, hv]
      exact ⟨j1, j2, fun e => absurd e (set_not j1).1, fun e => absurd e (set_not j1).2⟩
  | esc =>
    obtain ⟨k1, k2⟩ := j4 hs
    simp only [jpD, hs] at h
    split at h
    · rename_i s he
      simp only [Option.some.injEq, Prod.mk.injEq] at h
      obtain ⟨_, rfl, hp⟩ := h
      rw [none hp]
      have hset := escapeTo_set he
      exact ⟨hset, suf_tail j2, fun e => absurd e (set_not hset).1, fun e => absurd e (set_not hset).2⟩
    · simp only [Option.some.injEq, Prod.mk.injEq] at h
      obtain ⟨_, rfl, hp⟩ := h
      rw [two hp, hv]
      exact ⟨j1, suf_tail k2, fun e => absurd e (set_not j1).1, fun e => absurd e (set_not j1).2⟩
  | ascii | roman | katakana | lead | trail =>
    simp only [jpD, hs] at h
    repeat' split at h
    all_goals
      simp only [Option.some.injEq, Prod.mk.injEq] at h
      obtain ⟨_, rfl, hp⟩ := h
      rw [none hp]
      refine ⟨j1, suf_tail j2, fun e => ?_, fun e => ?_⟩
    all_goals first
      | (exfalso; simp at e; done)
      | (exfalso; simp [hs] at e; done)
      | (have hc : v = 0x1B := by omega
         rw [← hc]; exact j2)

theorem jp_eoq {w : List Nat} (hw : ¬ EndsInEscape w) (st : JpD) (h : JpJ w st []) : jpD st .eoq ≠ none := by
  obtain ⟨_, _, _, j4⟩ := h
  cases hs : st.state with
  | esc =>
    obtain ⟨k1, a, k2⟩ := j4 hs
    refine absurd ⟨a, ?_⟩ hw
    rcases k1 with k1 | k1 <;> rw [k1] at k2
    · exact Or.inl k2.symm
    · exact Or.inr k2.symm
  | _ => simp [jpD, hs]

/-- Where the last two bytes ESC and `x` have led. -/
def JpE (x : Nat) (st : JpD) (b : List Nat) : Prop :=
  (b = [] ∧ st.state = .esc) ∨ (b = [x] ∧ st.state = .escStart) ∨ ∃ c, b = c ++ [0x1B, x]

theorem escapeTo_esc (l : Nat) : escapeTo l 0x1B = none := by
  unfold escapeTo
  simp

theorem jp_ends {x : Nat} (hx : x = 0x24 ∨ x = 0x28) : Keeps jpD (JpE x) := by
  intro st v b r st' pv hj h
  have none : ∀ {l : List Nat}, ([] : List Item) = l.map .val → l = [] := fun e => by simpa using e.symm
  rcases hj with ⟨hb, _⟩ | ⟨hb, hs⟩ | ⟨c, hb⟩
  · simp at hb
  · simp only [List.cons.injEq] at hb
    obtain ⟨rfl, rfl⟩ := hb
    simp only [jpD, hs] at h
    rw [if_pos (by omega)] at h
    simp only [Option.some.injEq, Prod.mk.injEq] at h
    obtain ⟨_, rfl, hp⟩ := h
    exact Or.inl ⟨by rw [none hp]; rfl, rfl⟩
  · cases c with
    | cons y c =>
      simp only [List.cons_append, List.cons.injEq] at hb
      exact Or.inr (Or.inr ⟨pv ++ c, by rw [hb.2, List.append_assoc]⟩)
    | nil =>
      simp only [List.nil_append, List.cons.injEq] at hb
      obtain ⟨rfl, rfl⟩ := hb
      cases hs : st.state with
      | esc =>
        simp only [jpD, hs] at h
        rw [escapeTo_esc] at h
        simp only [Option.some.injEq, Prod.mk.injEq] at h
        obtain ⟨_, _, hp⟩ := h
        refine Or.inr (Or.inr ⟨[st.lead], ?_⟩)
        have : pv = [st.lead, 0x1B] := by
          have := congrArg (List.map fun i => match i with | Item.val v => v | .eoq => 0) hp
          simpa [List.map_map, Function.comp_def] using this.symm
        rw [this]; rfl
      | escStart =>
        simp only [jpD, hs] at h
        rw [if_neg (by omega)] at h
        simp only [Option.some.injEq, Prod.mk.injEq] at h
        obtain ⟨_, _, hp⟩ := h
        refine Or.inr (Or.inr ⟨[], ?_⟩)
        have : pv = [0x1B] := by
          have := congrArg (List.map fun i => match i with | Item.val v => v | .eoq => 0) hp
          simpa [List.map_map, Function.comp_def] using this.symm
        rw [this]; rfl
      | ascii | roman | katakana | lead | trail =>
        simp only [jpD, hs, Nat.reduceMod, if_true] at h
        simp only [Option.some.injEq, Prod.mk.injEq] at h
        obtain ⟨_, rfl, hp⟩ := h
        exact Or.inr (Or.inl ⟨by rw [none hp]; rfl, rfl⟩)

/-! ### gb18030 -/

theorem unval {l m : List Nat} (h : l.map Item.val = m.map Item.val) : l = m := by
  have := congrArg (List.map fun i => match i with | Item.val v => v | .eoq => 0) h
  simpa [List.map_map, Function.comp_def] using this

/-- The bytes kept, followed by what is left, are a suffix of the whole. -/
def GbJ (w : List Nat) (st : GbD) (b : List Nat) : Prop :=
  (st = ⟨0, 0, 0⟩ ∧ b <:+ w) ∨
  (st.second = 0 ∧ st.third = 0 ∧ (0x81 ≤ st.first ∧ st.first ≤ 0xFE) ∧ st.first :: b <:+ w) ∨
  (st.third = 0 ∧ (0x81 ≤ st.first ∧ st.first ≤ 0xFE) ∧ (0x30 ≤ st.second ∧ st.second ≤ 0x39) ∧
    st.first :: st.second :: b <:+ w) ∨
  ((0x81 ≤ st.first ∧ st.first ≤ 0xFE) ∧ (0x30 ≤ st.second ∧ st.second ≤ 0x39) ∧ (0x81 ≤ st.third ∧ st.third ≤ 0xFE) ∧
    st.first :: st.second :: st.third :: b <:+ w)

theorem GbJ.suffix {w : List Nat} {st : GbD} {b : List Nat} (h : GbJ w st b) : b <:+ w := by
  rcases h with ⟨_, h⟩ | ⟨_, _, _, h⟩ | ⟨_, _, _, h⟩ | ⟨_, _, _, h⟩
  · exact h
  · exact suf_tail h
  · exact suf_tail (suf_tail h)
  · exact suf_tail (suf_tail (suf_tail h))

theorem gb_keeps {w : List Nat} (hw : ∀ x ∈ w, x < 256) : Keeps gbD (GbJ w) := by
  intro st v b r st' pv hj h
  have hv := mod_byte hw hj.suffix
  simp only [gbD, hv] at h
  rcases hj with ⟨rfl, j⟩ | ⟨j2, j3, j1, j⟩ | ⟨j3, j1, j2, j⟩ | ⟨j1, j2, j3, j⟩
  · rw [if_neg (by simp), if_neg (by simp), if_neg (by simp)] at h
    repeat' split at h
    all_goals
      simp only [Option.some.injEq, Prod.mk.injEq] at h
      obtain ⟨_, rfl, hp⟩ := h
      rw [unval (m := []) hp.symm]
    all_goals first
      | exact Or.inl ⟨rfl, suf_tail j⟩
      | exact Or.inr (Or.inl ⟨rfl, rfl, by assumption, j⟩)
  · rw [if_neg (by simp [j3]), if_neg (by simp [j2]), if_pos (by omega)] at h
    have z : ({ st with first := 0 } : GbD) = ⟨0, 0, 0⟩ := by rw [j2, j3]
    split at h
    · rename_i hc
      simp only [Option.some.injEq, Prod.mk.injEq] at h
      obtain ⟨_, rfl, hp⟩ := h
      rw [unval (m := []) hp.symm]
      exact Or.inr (Or.inr (Or.inl ⟨j3, j1, hc, j⟩))
    · split at h
      · simp only [Option.some.injEq, Prod.mk.injEq] at h
        obtain ⟨_, rfl, hp⟩ := h
        rw [unval (m := []) hp.symm]
        exact Or.inl ⟨z, suf_tail (suf_tail j)⟩
      · simp only [Option.some.injEq, Prod.mk.injEq] at h
        obtain ⟨_, rfl, hp⟩ := h
        refine Or.inl ⟨z, ?_⟩
        split at hp
        · rw [unval (m := [v]) hp.symm]; exact suf_tail j
        · rw [unval (m := []) hp.symm]; exact suf_tail (suf_tail j)
  · rw [if_neg (by simp [j3]), if_pos (by omega)] at h
    have hm : st.second % 256 = st.second := Nat.mod_eq_of_lt (by omega)
    rw [hm] at h
    split at h
    · rename_i hc
      simp only [Option.some.injEq, Prod.mk.injEq] at h
      obtain ⟨_, rfl, hp⟩ := h
      rw [unval (m := []) hp.symm]
      exact Or.inr (Or.inr (Or.inr ⟨j1, j2, hc, j⟩))
    · simp only [Option.some.injEq, Prod.mk.injEq] at h
      obtain ⟨_, rfl, hp⟩ := h
      rw [unval (m := [st.second, v]) hp.symm]
      exact Or.inl ⟨by rw [j3], suf_tail j⟩
  · rw [if_pos (by omega)] at h
    have hm : st.second % 256 = st.second := Nat.mod_eq_of_lt (by omega)
    have hm3 : st.third % 256 = st.third := Nat.mod_eq_of_lt (by omega)
    rw [hm, hm3] at h
    split at h
    · simp only [Option.some.injEq, Prod.mk.injEq] at h
      obtain ⟨_, rfl, hp⟩ := h
      rw [unval (m := [st.second, st.third, v]) hp.symm]
      exact Or.inl ⟨rfl, suf_tail j⟩
    · split at h
      · cases h
      · simp only [Option.some.injEq, Prod.mk.injEq] at h
        obtain ⟨_, rfl, hp⟩ := h
        rw [unval (m := []) hp.symm]
        exact Or.inl ⟨rfl, suf_tail (suf_tail (suf_tail (suf_tail j)))⟩
      · simp only [Option.some.injEq, Prod.mk.injEq] at h
        obtain ⟨_, rfl, hp⟩ := h
        rw [unval (m := []) hp.symm]
        exact Or.inl ⟨rfl, suf_tail (suf_tail (suf_tail (suf_tail j)))⟩

theorem gb_val {w : List Nat} (hw : ∀ x ∈ w, x < 256) (hn : ¬ HasBeyond w) (st : GbD) (v : Nat) (b : List Nat)
    (hj : GbJ w st (v :: b)) : gbD st (.val v) ≠ none := by
  have hv := mod_byte hw hj.suffix
  simp only [gbD, hv]
  by_cases h3 : st.third ≠ 0
  · rw [if_pos h3]
    have hj : (0x81 ≤ st.first ∧ st.first ≤ 0xFE) ∧ (0x30 ≤ st.second ∧ st.second ≤ 0x39) ∧ (0x81 ≤ st.third ∧ st.third ≤ 0xFE) ∧
        st.first :: st.second :: st.third :: v :: b <:+ w := by
      rcases hj with ⟨rfl, _⟩ | ⟨_, h, _⟩ | ⟨h, _⟩ | h
      · simp at h3
      · exact absurd h h3
      · exact absurd h h3
      · exact h
    obtain ⟨j1, j2, j3, a, j⟩ := hj
    split
    · simp
    · rename_i hd
      have hd : 0x30 ≤ v ∧ v ≤ 0x39 := by simpa using hd
      have : rangesCodePoint ((st.first - 0x81) * 12600 + (st.second - 0x30) * 1260 + (st.third - 0x81) * 10 + v - 0x30) ≠ none := by
        refine ranges_defined fun hp => hn ⟨a, st.first, st.second, st.third, v, b, j.symm, ?_⟩
        unfold Beyond
        omega
      split
      · exact absurd (by assumption) this
      · simp
      · simp
  · rw [if_neg h3]
    repeat' split
    all_goals simp

theorem gb_eoq (st : GbD) : gbD st .eoq ≠ none := by
  simp only [gbD]
  split <;> simp

/-- The decoder is ready for a new character behind a byte below 0x30. -/
def GbN (x : Nat) (st : GbD) (b : List Nat) : Prop :=
  ((st.second = 0 ∨ 0x30 ≤ st.second) ∧ (st.third = 0 ∨ 0x81 ≤ st.third)) ∧
  ((b = [] ∧ st = ⟨0, 0, 0⟩) ∨ ∃ c, b = c ++ [x])

/-- A four-byte sequence beyond the ranges fails. -/
theorem gb_fails {b1 b2 b3 b4 : Nat} (h : Beyond b1 b2 b3 b4) (c : List Nat) :
    Fails gbD ⟨0, 0, 0⟩ (b1 :: b2 :: b3 :: b4 :: c) [.cont, .cont, .cont] := by
  obtain ⟨h1, h2, h3, h4, h5, h6, h7, h8, h9, h10⟩ := h
  have m1 : b1 % 256 = b1 := Nat.mod_eq_of_lt (by omega)
  have m2 : b2 % 256 = b2 := Nat.mod_eq_of_lt (by omega)
  have m3 : b3 % 256 = b3 := Nat.mod_eq_of_lt (by omega)
  have m4 : b4 % 256 = b4 := Nat.mod_eq_of_lt (by omega)
  refine .step (pv := []) (st' := ⟨b1, 0, 0⟩) ?_ (by simp) (.step (pv := []) (st' := ⟨b1, b2, 0⟩) ?_ (by simp)
    (.step (pv := []) (st' := ⟨b1, b2, b3⟩) ?_ (by simp) (.here ?_)))
  · simp only [gbD, m1]
    rw [if_neg (by simp), if_neg (by simp), if_neg (by simp), if_neg (by omega), if_neg (by omega), if_pos (by omega)]
    rfl
  · simp only [gbD, m2]
    rw [if_neg (by simp), if_neg (by simp), if_pos (by omega), if_pos (by omega)]
    rfl
  · simp only [gbD, m3]
    rw [if_neg (by simp), if_pos (by omega), if_pos (by omega)]
    rfl
  · simp only [gbD, m4]
    rw [if_pos (by omega), if_neg (by omega), ranges_beyond (by omega) (by omega)]

theorem gb_neutral {x : Nat} (hx : x < 0x30) : Keeps gbD (GbN x) := by
  intro st v b r st' pv hj h
  obtain ⟨⟨i2, i3⟩, hj⟩ := hj
  have step : (st'.second = 0 ∨ 0x30 ≤ st'.second) ∧ (st'.third = 0 ∨ 0x81 ≤ st'.third) := by
    simp only [gbD] at h
    repeat' split at h
    all_goals first
      | (cases h; done)
      | (simp only [Option.some.injEq, Prod.mk.injEq] at h
         obtain ⟨_, rfl, _⟩ := h
         refine ⟨?_, ?_⟩ <;> first
           | exact Or.inl rfl
           | assumption
           | exact Or.inr (And.left (by assumption)))
  refine ⟨step, ?_⟩
  rcases hj with ⟨hb, _⟩ | ⟨c, hb⟩
  · simp at hb
  · cases c with
    | cons y c =>
      simp only [List.cons_append, List.cons.injEq] at hb
      exact Or.inr ⟨pv ++ c, by rw [hb.2, List.append_assoc]⟩
    | nil =>
      simp only [List.nil_append, List.cons.injEq] at hb
      obtain ⟨rfl, rfl⟩ := hb
      have m : v % 256 = v := Nat.mod_eq_of_lt (by omega)
      simp only [gbD, m] at h
      by_cases h3 : st.third ≠ 0
      · rw [if_pos h3, if_pos (by omega)] at h
        simp only [Option.some.injEq, Prod.mk.injEq] at h
        obtain ⟨_, rfl, hp⟩ := h
        exact Or.inr ⟨[st.second % 256, st.third % 256], by rw [unval (m := [st.second % 256, st.third % 256, v]) hp.symm]; rfl⟩
      · rw [if_neg h3] at h
        by_cases h2 : st.second ≠ 0
        · rw [if_pos h2, if_neg (by omega)] at h
          simp only [Option.some.injEq, Prod.mk.injEq] at h
          obtain ⟨_, rfl, hp⟩ := h
          exact Or.inr ⟨[st.second % 256], by rw [unval (m := [st.second % 256, v]) hp.symm]; rfl⟩
        · rw [if_neg h2] at h
          by_cases h1 : st.first ≠ 0
          · rw [if_pos h1, if_neg (by omega), if_neg (show ¬ ((0x40 ≤ v ∧ v ≤ 0x7E) ∨ (0x80 ≤ v ∧ v ≤ 0xFE)) by omega)] at h
            simp only [Option.bind_none] at h
            rw [if_pos (by omega)] at h
            simp only [Option.some.injEq, Prod.mk.injEq] at h
            obtain ⟨_, rfl, hp⟩ := h
            exact Or.inr ⟨[], by rw [unval (m := [v]) hp.symm]; rfl⟩
          · rw [if_neg h1, if_pos (by omega)] at h
            simp only [Option.some.injEq, Prod.mk.injEq] at h
            obtain ⟨_, rfl, hp⟩ := h
            refine Or.inl ⟨by rw [unval (m := []) hp.symm]; rfl, ?_⟩
            obtain ⟨f, s, t⟩ := st
            simp only [ne_eq, not_not] at h1 h2 h3
            rw [h1, h2, h3]

end Verif.Proof.DecodeSafe
