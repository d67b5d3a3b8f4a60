import Verif.Proof.LegacyRun
/- The ISO-2022-JP coders. -/
namespace Verif.Proof.JpCoder
open Verif.Model.Coder Verif.Model.Table Verif.Model.Tables Verif.Model.Legacy Verif.Proof.CoderRun Verif.Proof.Utf8Coder
open Verif.Proof.Tables Verif.Proof.LegacyRun

/-- The pointer of a code point. -/
abbrev ptr (c : Nat) : Option Nat := Verif.Model.Table.pointer ptr0Jis0208 ptr1Jis0208 c

/-- What the encoder looks up for a code point: U+2212 and half-width katakana are replaced. -/
def mapped (c : Nat) : Option Nat :=
  if c = 0x2212 then some 0xFF0D
  else if 0xFF61 ≤ c ∧ c ≤ 0xFF9F then codePoint cpIso2022JpKatakana (c - 0xFF61) else some c

theorem mapped_eq (c : Nat) :
    (if 0xFF61 ≤ (if c = 0x2212 then 0xFF0D else c) ∧ (if c = 0x2212 then 0xFF0D else c) ≤ 0xFF9F then
      codePoint cpIso2022JpKatakana ((if c = 0x2212 then 0xFF0D else c) - 0xFF61)
      else some (if c = 0x2212 then 0xFF0D else c)) = mapped c := by
  unfold mapped
  by_cases h : c = 0x2212
  · subst h; rfl
  · simp only [if_neg h]

/-- Not handled before the table look-up. -/
def Wide (c : Nat) : Prop := 0x7F < c ∧ c ≠ 0xA5 ∧ c ≠ 0x203E

theorem run_wide {s : JpE} {c : Nat} (h : Wide c) : jpE s (.val c) =
    match mapped c with
    | none => none
    | some cp =>
      match ptr cp with
      | none => if s ≠ .jis0208 then some (.bytes [0x1B, 0x28, 0x42], .ascii, [.val cp]) else some (.error cp, s, [])
      | some p =>
        if s ≠ .jis0208 then some (.bytes [0x1B, 0x24, 0x42], .jis0208, [.val cp])
        else some (.bytes [(p / 94 + 0x21) % 256, (p % 94 + 0x21) % 256], s, []) := by
  obtain ⟨h1, h2, h3⟩ := h
  unfold jpE
  dsimp only
  rw [if_neg (by omega), if_neg (by omega), if_neg (by omega), if_neg (by omega), if_neg (by omega), mapped_eq]
  cases mapped c with
  | none => rfl
  | some cp =>
    dsimp only [ptr]
    cases Verif.Model.Table.pointer ptr0Jis0208 ptr1Jis0208 cp <;> rfl

theorem kata_ok : ∀ i, i < 63 → ∃ c, codePoint cpIso2022JpKatakana i = some c ∧ 0x7F < c ∧ c ≠ 0xA5 ∧ c ≠ 0x203E ∧
    c ≠ 0x2212 ∧ c < 0xFF61 ∧ (ptr c).isSome = true := by
  intro i hi
  have h : ∀ i : Fin 63, (match codePoint cpIso2022JpKatakana i with
    | none => false
    | some c => decide (0x7F < c ∧ c ≠ 0xA5 ∧ c ≠ 0x203E ∧ c ≠ 0x2212 ∧ c < 0xFF61 ∧ (ptr c).isSome = true)) = true := by
    decide +kernel
  have h := h ⟨i, hi⟩
  dsimp only at h
  split at h
  · cases h
  · rename_i c hc
    exact ⟨c, hc, by simpa using h⟩

theorem ptr_FF0D : (ptr 0xFF0D).isSome = true := by decide +kernel

/-- A mapped code point is not mapped again. -/
theorem mapped_wide {c : Nat} (h : Wide c) : ∃ c', mapped c = some c' ∧ Wide c' ∧ mapped c' = some c' ∧
    (c' ≠ c → (ptr c').isSome = true) := by
  obtain ⟨h1, h2, h3⟩ := h
  unfold mapped
  by_cases e : c = 0x2212
  · exact ⟨0xFF0D, by rw [if_pos e], ⟨by decide, by decide, by decide⟩, by decide, fun _ => ptr_FF0D⟩
  · by_cases e2 : 0xFF61 ≤ c ∧ c ≤ 0xFF9F
    · obtain ⟨d, k1, k2, k3, k4, k5, k6, k7⟩ := kata_ok (c - 0xFF61) (by omega)
      exact ⟨d, by rw [if_neg e, if_pos e2, k1], ⟨k2, k3, k4⟩, by rw [if_neg k5, if_neg (by omega)], fun _ => k7⟩
    · exact ⟨c, by rw [if_neg e, if_neg e2], ⟨h1, h2, h3⟩, by rw [if_neg e, if_neg e2], fun h => absurd rfl h⟩

/-- Code points the encoder can write: ASCII, yen sign, overline, and what the table has. -/
def Known (c : Nat) : Prop := c ≤ 0x7F ∨ c = 0xA5 ∨ c = 0x203E ∨ ∃ c', mapped c = some c' ∧ (ptr c').isSome = true

/-- The state a code point is written in. -/
def target (s : JpE) (c : Nat) : JpE :=
  if c ≤ 0x7F then (if s = .roman ∧ c ≠ 0x5C ∧ c ≠ 0x7E then .roman else .ascii)
  else if c = 0xA5 ∨ c = 0x203E then .roman else .jis0208

/-- The escape sequence to a state. -/
def escape : JpE → List Nat
  | .ascii => [0x1B, 0x28, 0x42]
  | .roman => [0x1B, 0x28, 0x4A]
  | .jis0208 => [0x1B, 0x24, 0x42]

/-- What is written in the target state. -/
def direct (c : Nat) : Res :=
  if c = 0xE ∨ c = 0xF ∨ c = 0x1B then .error 0xFFFD
  else if c ≤ 0x7F then .bytes [c]
  else if c = 0xA5 then .bytes [0x5C]
  else if c = 0x203E then .bytes [0x7E]
  else
    let p := ((mapped c).bind ptr).getD 0
    .bytes [p / 94 + 0x21, p % 94 + 0x21]

theorem Known.wide {c : Nat} (h : Known c) (hw : Wide c) : ∃ c' p, mapped c = some c' ∧ ptr c' = some p ∧ p < 8836 ∧
    Wide c' ∧ mapped c' = some c' ∧ Known c' ∧ codePoint cpJis0208 p = some c' := by
  obtain ⟨h1, h2, h3⟩ := hw
  rcases h with h | h | h | ⟨c', h, hp⟩
  · omega
  · omega
  · omega
  · obtain ⟨c2, k1, k2, k3, _⟩ := mapped_wide ⟨h1, h2, h3⟩
    rw [h] at k1; cases k1
    obtain ⟨p, hp⟩ := Option.isSome_iff_exists.mp hp
    have := jis_pointer hp
    exact ⟨c', p, h, hp, this.2, k2, k3, Or.inr (Or.inr (Or.inr ⟨c', k3, by rw [hp]; rfl⟩)), this.1⟩

theorem enc_direct {c : Nat} (h : Known c) {s : JpE} (ht : target s c = s) : jpE s (.val c) = some (direct c, s, []) := by
  by_cases h1 : c ≤ 0x7F
  · unfold target at ht
    rw [if_pos h1] at ht
    have e : c % 256 = c := by omega
    unfold direct
    by_cases hc : s = .roman ∧ c ≠ 0x5C ∧ c ≠ 0x7E
    · obtain ⟨rfl, hc⟩ := hc
      simp only [jpE, e]
      by_cases h2 : c = 0xE ∨ c = 0xF ∨ c = 0x1B
      · rw [if_pos ⟨by simp, h2⟩, if_pos h2]
      · rw [if_neg (by simp [h2]), if_neg (by simp), if_pos (by simp [h1, hc]), if_pos h1, if_neg h2, if_pos h1]
    · rw [if_neg hc] at ht
      subst ht
      simp only [jpE, e]
      by_cases h2 : c = 0xE ∨ c = 0xF ∨ c = 0x1B
      · rw [if_pos ⟨by simp, h2⟩, if_pos h2]
      · rw [if_neg (by simp [h2]), if_pos ⟨trivial, h1⟩, if_neg h2, if_pos h1]
  · unfold target at ht
    rw [if_neg h1] at ht
    unfold direct
    rw [if_neg (by omega), if_neg h1]
    by_cases h2 : c = 0xA5 ∨ c = 0x203E
    · rw [if_pos h2] at ht
      subst ht
      rcases h2 with rfl | rfl <;> rfl
    · rw [if_neg h2] at ht
      subst ht
      rw [if_neg (by omega), if_neg (by omega)]
      obtain ⟨c', p, k1, k2, k3, _⟩ := h.wide ⟨by omega, by omega, by omega⟩
      rw [run_wide ⟨by omega, by omega, by omega⟩, k1]
      dsimp only
      rw [k2]
      dsimp only
      have e1 : (p / 94 + 0x21) % 256 = p / 94 + 0x21 := by omega
      have e2 : (p % 94 + 0x21) % 256 = p % 94 + 0x21 := by omega
      rw [if_neg (by simp), e1, e2]
      simp [k2]

theorem enc_switch {c : Nat} (h : Known c) {s : JpE} (ht : target s c ≠ s) : ∃ c',
    jpE s (.val c) = some (.bytes (escape (target s c)), target s c, [.val c']) ∧ Known c' ∧
      target (target s c) c' = target s c ∧ direct c' = direct c := by
  by_cases h1 : c ≤ 0x7F
  · have hs : s ≠ .ascii ∧ (s = .roman → c = 0x5C ∨ c = 0x7E) := by
      unfold target at ht
      rw [if_pos h1] at ht
      split at ht
      · rename_i hc; exact absurd hc.1.symm ht
      · rename_i hc
        refine ⟨fun e => ht e.symm, fun e => ?_⟩
        by_contra hx
        exact hc ⟨e, by omega, by omega⟩
    have et : target s c = .ascii := by
      unfold target
      rw [if_pos h1, if_neg (by rintro ⟨e, h5⟩; have := hs.2 e; omega)]
    refine ⟨c, ?_, h, ?_, rfl⟩
    · rw [et]
      simp only [jpE]
      rw [if_neg, if_neg (by simp [hs.1]), if_neg, if_pos ⟨h1, hs.1⟩]
      · rfl
      · rintro ⟨e, h6⟩; have := hs.2 e; omega
      · rintro ⟨e | e, h6⟩
        · exact hs.1 e
        · have := hs.2 e; omega
    · rw [et]; unfold target; rw [if_pos h1, if_neg (by simp)]
  · by_cases h2 : c = 0xA5 ∨ c = 0x203E
    · have et : target s c = .roman := by unfold target; rw [if_neg h1, if_pos h2]
      rw [et] at ht ⊢
      refine ⟨c, ?_, h, ?_, rfl⟩
      · simp only [jpE]
        rw [if_neg (by omega), if_neg (by omega), if_neg (by rintro ⟨e, _⟩; exact ht e.symm), if_neg (by omega),
          if_pos ⟨h2, fun e => ht e.symm⟩]
        rfl
      · unfold target; rw [if_neg h1, if_pos h2]
    · have et : ∀ s, target s c = .jis0208 := by intro s; unfold target; rw [if_neg h1, if_neg h2]
      rw [et] at ht ⊢
      obtain ⟨c', p, k1, k2, k3, k4, k5, k6, k7⟩ := h.wide ⟨by omega, by omega, by omega⟩
      refine ⟨c', ?_, k6, ?_, ?_⟩
      · rw [run_wide ⟨by omega, by omega, by omega⟩, k1]
        dsimp only
        rw [k2]
        dsimp only
        rw [if_pos (fun e => ht e.symm)]
        rfl
      · obtain ⟨l1, l2, l3⟩ := k4
        unfold target; rw [if_neg (by omega), if_neg (by omega)]
      · obtain ⟨l1, l2, l3⟩ := k4
        unfold direct
        rw [if_neg (by omega), if_neg (by omega), if_neg (by omega), if_neg (by omega),
          if_neg (by omega), if_neg (by omega), if_neg (by omega), if_neg (by omega), k1, k5]

/-- The steps for one code point: at most one escape sequence, then its bytes (or an error). -/
def stepsOf (s : JpE) (c : Nat) : List Res :=
  if target s c = s then [direct c] else [.bytes (escape (target s c)), direct c]

theorem direct_ne (c : Nat) : direct c ≠ .finished := by
  unfold direct
  split
  · simp
  split
  · simp
  split
  · simp
  split
  · simp
  · simp

theorem enc_trace {c : Nat} (h : Known c) (s : JpE) (rest : List Nat) :
    Trace jpE s (qq (c :: rest)) (stepsOf s c) (target s c) (qq rest) := by
  unfold stepsOf
  split
  · rename_i ht
    refine .step (read_cons c rest) (enc_direct h ht) (direct_ne c) ?_
    rw [ht]; exact .nil _ _
  · rename_i ht
    obtain ⟨c', e1, e2, e3, e4⟩ := enc_switch h ht
    refine .step (read_cons c rest) e1 (by simp) ?_
    rw [← e4]
    exact .step (read_cons c' rest) (enc_direct e2 e3) (direct_ne c') (.nil _ _)

/-- The state after a string. -/
def after : JpE → List Nat → JpE
  | s, [] => s
  | s, c :: cs => after (target s c) cs

def stepsAll : JpE → List Nat → List Res
  | _, [] => []
  | s, c :: cs => stepsOf s c ++ stepsAll (target s c) cs

theorem enc_traces : ∀ (cs : List Nat) (s : JpE), (∀ c ∈ cs, Known c) → Trace jpE s (qq cs) (stepsAll s cs) (after s cs) (qq [])
  | [], s, _ => .nil _ _
  | c :: cs, s, h => (enc_trace (h c (by simp)) s cs).append (enc_traces cs _ (fun x hx => h x (by simp [hx])))

/-- The steps for a whole string: back to ASCII at the end. -/
def stepsTo (s : JpE) (cs : List Nat) : List Res :=
  stepsAll s cs ++ if after s cs = .ascii then [] else [.bytes (escape .ascii)]

theorem enc_whole {cs : List Nat} (s : JpE) (h : ∀ c ∈ cs, Known c) :
    ∃ q2, Whole jpE s (qq cs) (stepsTo s cs) .ascii q2 := by
  unfold stepsTo
  have t := enc_traces cs s h
  split
  · rename_i ha
    rw [List.append_nil]
    rw [ha] at t
    exact ⟨[.eoq], .ascii, qq [], .eoq, qq [], [], t, read_nil, rfl, rfl⟩
  · rename_i ha
    refine ⟨[.eoq, .eoq], .ascii, [.eoq, .eoq], .eoq, [.eoq, .eoq], [], ?_, rfl, rfl, rfl⟩
    refine t.append (.step read_nil (r := .bytes (escape .ascii)) (st' := .ascii) (pre := [.eoq]) ?_ (by simp) (.nil _ _))
    unfold jpE; dsimp only; rw [if_pos ha]; rfl

theorem stepsTo_length (cs : List Nat) : ∀ s, (stepsTo s cs).length ≤ 2 * cs.length + 1 := by
  have : ∀ s, (stepsAll s cs).length ≤ 2 * cs.length := by
    induction cs with
    | nil => intro s; simp [stepsAll]
    | cons c cs ih =>
      intro s
      rw [stepsAll, List.length_append]
      have := ih (target s c)
      have : (stepsOf s c).length ≤ 2 := by unfold stepsOf; split <;> simp
      simp; omega
  intro s
  unfold stepsTo
  have := this s
  rw [List.length_append]
  split <;> simp <;> omega

theorem outs_append (mode : Mode) (a b : List Res) : outs false mode (a ++ b) = outs false mode a ++ outs false mode b := by
  simp [outs]

theorem direct_out (mode : Mode) (c : Nat) : (out1 false mode (direct c)).length ≤ 8 := by
  unfold direct
  split
  · cases mode
    · simp [out1]
    · simp [out1]
    · simp [out1]
    · have : toChars 10 0xFFFD = [54, 53, 53, 51, 51] := by
        decide +kernel
      simp [out1, this]
  split
  · simp [out1]
  split
  · simp [out1]
  split
  · simp [out1]
  · simp [out1]

/-- Bytes written: a constant number for each code point. -/
theorem outs_length (mode : Mode) (cs : List Nat) : ∀ s, (outs false mode (stepsTo s cs)).length ≤ 11 * cs.length + 3 := by
  have : ∀ s, (outs false mode (stepsAll s cs)).length ≤ 11 * cs.length := by
    induction cs with
    | nil => intro s; simp [stepsAll, outs]
    | cons c cs ih =>
      intro s
      rw [stepsAll, outs_append, List.length_append]
      have := ih (target s c)
      have hd := direct_out mode c
      have : (outs false mode (stepsOf s c)).length ≤ 11 := by
        unfold stepsOf
        split
        · simp [outs]; omega
        · have : (escape (target s c)).length = 3 := by cases target s c <;> rfl
          have e : outs false mode [.bytes (escape (target s c)), direct c] =
              escape (target s c) ++ out1 false mode (direct c) := by
            simp only [outs, List.flatMap_cons, List.flatMap_nil, List.append_nil]; rfl
          rw [e, List.length_append]; omega
      simp; omega
  intro s
  unfold stepsTo
  have := this s
  rw [outs_append, List.length_append]
  split
  · have : (outs false mode []).length = 0 := rfl
    omega
  · have : (outs false mode [.bytes (escape .ascii)]).length = 3 := rfl
    omega

/-! ### The decoder -/

def st : JpE → JpState
  | .ascii => .ascii
  | .roman => .roman
  | .jis0208 => .lead

/-- The decoder is in the state of the encoder. -/
def Sync (s : JpE) (d : JpD) : Prop := d.state = st s ∧ d.output = st s

theorem dec_escape {s t : JpE} {d : JpD} (h : Sync s d) (hf : d.flag = false) (rest : List Nat) :
    ∃ d' rs, Trace jpD d (qq (escape t ++ rest)) rs d' (qq rest) ∧ report rs = [] ∧ rs.length = 3 ∧ Sync t d' := by
  obtain ⟨state, output, lead, flag⟩ := d
  obtain ⟨h1, h2⟩ := h
  dsimp only at h1 h2 hf
  subst h1 h2 hf
  have key : ∀ a b, (a = 0x24 ∨ a = 0x28) → escapeTo a b = some (st t) → a < 256 → b < 256 →
      ∃ d' rs, Trace jpD ⟨st s, st s, lead, false⟩ (qq ([0x1B, a, b] ++ rest)) rs d' (qq rest) ∧ report rs = [] ∧
        rs.length = 3 ∧ Sync t d' := by
    intro a b ha hb la lb
    have ea : a % 256 = a := by omega
    have eb : b % 256 = b := by omega
    refine ⟨⟨st t, st t, 0, true⟩, [.cont, .cont, .cont], ?_, rfl, rfl, rfl, rfl⟩
    refine .step (read_cons 0x1B (a :: b :: rest)) (st' := ⟨.escStart, st s, lead, false⟩) (pre := []) ?_ (by simp) ?_
    · cases s <;> rfl
    refine .step (read_cons a (b :: rest)) (st' := ⟨.esc, st s, a, false⟩) (pre := []) ?_ (by simp) ?_
    · simp only [jpD, ea]; rw [if_pos ha]
    refine .step (read_cons b rest) (st' := ⟨st t, st t, 0, true⟩) (pre := []) ?_ (by simp) (.nil _ _)
    simp only [jpD, eb, hb]; rfl
  cases t
  · exact key 0x28 0x42 (by simp) rfl (by simp) (by simp)
  · exact key 0x28 0x4A (by simp) rfl (by simp) (by simp)
  · exact key 0x24 0x42 (by simp) rfl (by simp) (by simp)

/-- Code points the encoder writes and the decoder reads back as they are. -/
def Kept (c : Nat) : Prop := Known c ∧ c ≠ 0xE ∧ c ≠ 0xF ∧ c ≠ 0x1B ∧ c ≠ 0x2212 ∧ ¬ (0xFF61 ≤ c ∧ c ≤ 0xFF9F)

theorem dec_direct {c : Nat} (h : Kept c) {s : JpE} (ht : target s c = s) {d : JpD} (hd : Sync s d) :
    ∃ bs, direct c = .bytes bs ∧ ∀ rest, ∃ d' rs, Trace jpD d (qq (bs ++ rest)) rs d' (qq rest) ∧
      report rs = [some c] ∧ rs.length = bs.length ∧ Sync s d' ∧ d'.flag = false := by
  obtain ⟨state, output, lead, flag⟩ := d
  obtain ⟨h1, h2⟩ := hd
  dsimp only at h1 h2
  subst h1 h2
  obtain ⟨hk, n1, n2, n3, n4, n5⟩ := h
  have one : ∀ b cp, jpD ⟨st s, st s, lead, flag⟩ (.val b) = some (.points [cp], ⟨st s, st s, lead, false⟩, []) →
      ∀ rest, ∃ d' rs, Trace jpD ⟨st s, st s, lead, flag⟩ (qq ([b] ++ rest)) rs d' (qq rest) ∧
      report rs = [some cp] ∧ rs.length = 1 ∧ Sync s d' ∧ d'.flag = false := fun b cp h rest =>
    ⟨_, _, .step (read_cons b rest) h (by simp) (.nil _ _), rfl, rfl, ⟨rfl, rfl⟩, rfl⟩
  unfold target at ht
  unfold direct
  rw [if_neg (by omega)]
  by_cases h1 : c ≤ 0x7F
  · rw [if_pos h1]
    rw [if_pos h1] at ht
    have e : c % 256 = c := by omega
    refine ⟨[c], rfl, one c c ?_⟩
    split at ht
    · rename_i hc
      subst ht
      simp only [st, jpD, e]
      rw [if_neg n3, if_neg hc.2.1, if_neg hc.2.2, if_pos ⟨h1, n1, n2⟩]
    · subst ht
      simp only [st, jpD, e]
      rw [if_neg n3, if_pos ⟨h1, n1, n2⟩]
  · rw [if_neg h1] at ht ⊢
    by_cases h2 : c = 0xA5
    · rw [if_pos h2]
      rw [if_pos (Or.inl h2)] at ht
      subst ht h2
      exact ⟨[0x5C], rfl, one _ _ rfl⟩
    · rw [if_neg h2]
      by_cases h3 : c = 0x203E
      · rw [if_pos h3]
        rw [if_pos (Or.inr h3)] at ht
        subst ht h3
        exact ⟨[0x7E], rfl, one _ _ rfl⟩
      · rw [if_neg h3]
        rw [if_neg (by omega)] at ht
        subst ht
        obtain ⟨c', p, k1, k2, k3, k4, k5, k6, k7⟩ := hk.wide ⟨by omega, h2, h3⟩
        have : c' = c := by
          unfold mapped at k1
          rw [if_neg n4, if_neg n5] at k1
          exact (Option.some.inj k1).symm
        subst this
        rw [k1, Option.bind_some, k2]
        refine ⟨[p / 94 + 0x21, p % 94 + 0x21], rfl, fun rest => ?_⟩
        have e1 : (p / 94 + 0x21) % 256 = p / 94 + 0x21 := by omega
        have e2 : (p % 94 + 0x21) % 256 = p % 94 + 0x21 := by omega
        have ep : ((p / 94 + 0x21 - 0x21) * 94 + (p % 94 + 0x21) - 0x21) % 65536 = p := by omega
        refine ⟨⟨.lead, .lead, p / 94 + 0x21, false⟩, [.cont, .points [c']], ?_, rfl, rfl, ⟨rfl, rfl⟩, rfl⟩
        refine .step (read_cons _ (_ :: rest)) (st' := ⟨.trail, .lead, p / 94 + 0x21, false⟩) (pre := []) ?_ (by simp) ?_
        · simp only [st, jpD, e1]
          rw [if_neg (by omega), if_pos (by omega)]
        refine .step (read_cons _ rest) (st' := ⟨.lead, .lead, p / 94 + 0x21, false⟩) (pre := []) ?_ (by simp) (.nil _ _)
        simp only [jpD, e2]
        rw [if_neg (by omega), if_pos (by omega), ep, k7]

theorem direct_target {c : Nat} (s : JpE) : target (target s c) c = target s c := by
  unfold target
  split
  · split
    · rename_i h
      rw [if_pos ⟨rfl, h.2⟩]
    · rw [if_neg (by simp)]
  · rfl

/-- Bytes of a sequence of results. -/
def bytesOf (rs : List Res) : List Nat := outs false .fatal rs

theorem dec_steps : ∀ (cs : List Nat) (s : JpE) (d : JpD), (∀ c ∈ cs, Kept c) → Sync s d → d.flag = false →
    ∀ rest, ∃ d' rs, Trace jpD d (qq (bytesOf (stepsAll s cs) ++ rest)) rs d' (qq rest) ∧ report rs = cs.map some ∧
      rs.length = (bytesOf (stepsAll s cs)).length ∧ Sync (after s cs) d' ∧ d'.flag = false
  | [], s, d, _, hd, hf, rest => ⟨d, [], .nil _ _, rfl, rfl, hd, hf⟩
  | c :: cs, s, d, h, hd, hf, rest => by
    have hc := h c (by simp)
    rw [stepsAll, bytesOf, outs_append]
    have tail := dec_steps cs (target s c)
    obtain ⟨d1, rs1, t1, r1, l1, s1, f1⟩ : ∃ d' rs,
        Trace jpD d (qq (bytesOf (stepsOf s c) ++ (bytesOf (stepsAll (target s c) cs) ++ rest))) rs d'
          (qq (bytesOf (stepsAll (target s c) cs) ++ rest)) ∧ report rs = [some c] ∧
        rs.length = (bytesOf (stepsOf s c)).length ∧ Sync (target s c) d' ∧ d'.flag = false := by
      unfold stepsOf
      split
      · rename_i ht
        obtain ⟨bs, e, k⟩ := dec_direct hc ht hd
        rw [e, ht]
        have : bytesOf [.bytes bs] = bs := by simp [bytesOf, outs, out1]
        rw [this]
        exact k _
      · rename_i ht
        have hx := @dec_escape s (target s c) d hd hf
        have hdt := @dec_direct c hc (target s c) (direct_target s)
        have e : ∃ bs, direct c = .bytes bs := by
          obtain ⟨bs, e, _⟩ := hdt (d := ⟨st (target s c), st (target s c), 0, false⟩) ⟨rfl, rfl⟩
          exact ⟨bs, e⟩
        obtain ⟨bs, e⟩ := e
        rw [e]
        have : bytesOf [.bytes (escape (target s c)), .bytes bs] = escape (target s c) ++ bs := by
          simp [bytesOf, outs, out1]
        rw [this, List.append_assoc]
        obtain ⟨d1, rs1, t1, r1, l1, y1⟩ := hx (bs ++ (bytesOf (stepsAll (target s c) cs) ++ rest))
        obtain ⟨bs', e', k⟩ := hdt y1
        rw [e] at e'; cases e'
        obtain ⟨d2, rs2, t2, r2, l2, y2, f2⟩ := k (bytesOf (stepsAll (target s c) cs) ++ rest)
        have l3 : (escape (target s c)).length = 3 := by cases target s c <;> rfl
        exact ⟨d2, rs1 ++ rs2, t1.append t2, by rw [report_append, r1, r2]; rfl, by simp [l1, l2, l3], y2, f2⟩
    obtain ⟨d2, rs2, t2, r2, l2, y2, f2⟩ := tail d1 (fun x hx => h x (by simp [hx])) s1 f1 rest
    refine ⟨d2, rs1 ++ rs2, ?_, by rw [report_append, r1, r2]; rfl, ?_, y2, f2⟩
    · have := t1.append t2
      rw [List.append_assoc]; exact this
    · rw [List.length_append, l1, l2, List.length_append]; rfl

theorem dec_whole {cs : List Nat} (h : ∀ c ∈ cs, Kept c) :
    ∃ d rs, Whole jpD JpD.init (qq (bytesOf (stepsTo .ascii cs))) rs d [.eoq] ∧ report rs = cs.map some ∧
      rs.length = (bytesOf (stepsTo .ascii cs)).length := by
  have fin : ∀ d, Sync .ascii d → jpD d .eoq = some (.finished, d, []) := by
    intro d hd
    obtain ⟨state, output, lead, flag⟩ := d
    obtain ⟨h1, h2⟩ := hd
    dsimp only at h1 h2
    subst h1 h2
    rfl
  unfold stepsTo
  rw [bytesOf, outs_append]
  obtain ⟨d1, rs1, t1, r1, l1, y1, f1⟩ := dec_steps cs .ascii JpD.init h ⟨rfl, rfl⟩ rfl
    (bytesOf (if after .ascii cs = .ascii then [] else [.bytes (escape .ascii)]))
  by_cases ha : after .ascii cs = .ascii
  · rw [if_pos ha] at t1 ⊢
    rw [ha] at y1
    exact ⟨d1, rs1, ⟨d1, qq [], .eoq, qq [], [], t1, read_nil, fin d1 y1, rfl⟩, r1, by rw [l1]; simp [bytesOf, outs]⟩
  · rw [if_neg ha] at t1 ⊢
    obtain ⟨d2, rs2, t2, r2, l2, y2⟩ := @dec_escape _ .ascii d1 y1 f1 []
    have e : bytesOf [.bytes (escape .ascii)] = escape .ascii ++ [] := by simp [bytesOf, outs, out1]
    rw [e] at t1
    have t := t1.append t2
    refine ⟨d2, rs1 ++ rs2, ⟨d2, qq [], .eoq, qq [], [], ?_, read_nil, fin d2 y2, rfl⟩,
      by rw [report_append, r1, r2, List.append_nil], ?_⟩
    · rw [← e] at t; exact t
    · rw [List.length_append, l1, l2, List.length_append]; rfl

/-- A code point without a pointer is never consumed in the ASCII and Roman states. -/
theorem enc_diverges {c : Nat} (hw : Wide c) (hm : mapped c = some c) (hp : ptr c = none) {s : JpE} (hs : s ≠ .jis0208)
    (mode : Mode) (rest : List Nat) : ∀ (fuel : Nat) (o : List Nat),
    processQueue false jpE mode fuel s (qq (c :: rest)) (outAt o false) = .more := by
  intro fuel
  induction fuel generalizing s with
  | zero => intro o; rfl
  | succ n ih =>
    intro o
    have e := run_wide (s := s) hw
    rw [hm] at e
    dsimp only at e
    rw [hp] at e
    dsimp only at e
    rw [if_pos hs] at e
    have t : Trace jpE s (qq (c :: rest)) [.bytes [0x1B, 0x28, 0x42]] .ascii (qq (c :: rest)) :=
      .step (read_cons c rest) e (by simp) (.nil _ _)
    have := processQueue_trace (dec := false) (mode := mode) t (Or.inr (by simp)) n o false
    rw [show n + 1 = [Res.bytes [0x1B, 0x28, 0x42]].length + n by simp; omega, this]
    exact ih (by simp) _

end Verif.Proof.JpCoder
