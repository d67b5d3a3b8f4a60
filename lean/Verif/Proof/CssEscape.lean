import Verif.Model.CssTok
import Verif.Spec.CssTok
import Verif.Proof.HostParse
import Mathlib.Tactic.SplitIfs
namespace Verif.Proof.CssTok
open Verif.Model.Infra Verif.Model.Unicode Verif.Model.Coder Verif.Model.Percent Verif.Model.Host Verif.Model.CssTok
open Verif.Spec Verif.Spec.Infra Verif.Spec.Percent Verif.Spec.Host Verif.Spec.CssTok
open Verif.Proof.Host4 Verif.Proof.HostParse

theorem digit_iff (c : Nat) : isDigit c = true ↔ Digit c := by simp [isDigit, Digit]
theorem newline_iff (c : Nat) : isNewline c = true ↔ Newline c := by simp [isNewline, Newline]
theorem ws_iff (c : Nat) : isWs c = true ↔ Ws c := by simp [isWs, Ws, isNewline]; omega
theorem hex_eq (c : Nat) : isHexDigit c = isAsciiHexDigit c := by
  unfold isHexDigit isDigit isAsciiHexDigit isAsciiUpperHexDigit isAsciiLowerHexDigit isAsciiDigit
  cases decide (0x30 ≤ c) <;> cases decide (c ≤ 0x39) <;> simp
theorem hex_iff (c : Nat) : isHexDigit c = true ↔ Hex c := by
  rw [hex_eq]
  constructor
  · intro h; exact ⟨_, (hexDigit_iff c _).mpr ⟨h, rfl⟩⟩
  · rintro ⟨v, h⟩; exact ((hexDigit_iff c v).mp h).1
theorem identStart_iff (c : Nat) : isIdentStart c = true ↔ IdentStart c := by
  simp [isIdentStart, IdentStart, isLetter, Letter, isNonAscii, or_assoc]
theorem identCp_iff (c : Nat) : isIdentCp c = true ↔ IdentCp c := by
  simp [isIdentCp, IdentCp, identStart_iff, digit_iff, or_assoc]
theorem nonPrintable_iff (c : Nat) : isNonPrintable c = true ↔ NonPrintable c := by
  simp [isNonPrintable, NonPrintable, or_assoc]

theorem digitOf16 (c : Nat) : isDigitOf 16 c = isAsciiHexDigit c := by
  unfold isDigitOf
  by_cases h : isAsciiHexDigit c = true
  · have : digitVal c < 16 := by
      unfold isAsciiHexDigit isAsciiUpperHexDigit isAsciiLowerHexDigit isAsciiDigit at h
      simp only [Bool.or_eq_true, Bool.and_eq_true, decide_eq_true_eq] at h
      unfold digitVal; split
      · omega
      · split <;> omega
    simp [h, this]
  · simp [h]

@[simp] theorem starts_nil (P : Nat → Prop) : Starts P [] ↔ False := by
  constructor
  · rintro ⟨_, _, h, _⟩; cases h
  · intro h; cases h
@[simp] theorem starts_cons (P : Nat → Prop) (c : Nat) (r : List Nat) : Starts P (c :: r) ↔ P c := by
  constructor
  · rintro ⟨_, _, h, h'⟩; injection h with h1 h2; rw [h1]; exact h'
  · intro h; exact ⟨_, _, rfl, h⟩

theorem takeHex_sound (n : Nat) (r : List Nat) : r = (takeHex n r).1 ++ (takeHex n r).2 ∧ (takeHex n r).1.length ≤ n ∧
    (∀ c ∈ (takeHex n r).1, isHexDigit c = true) ∧ ((takeHex n r).1.length = n ∨ ¬ Starts Hex (takeHex n r).2) := by
  induction n generalizing r with
  | zero => simp [takeHex]
  | succ n ih =>
    cases r with
    | nil => simp [takeHex]
    | cons c r =>
      rw [takeHex]
      split
      · rename_i h
        obtain ⟨h1, h2, h3, h4⟩ := ih r
        refine ⟨?_, ?_, ?_, ?_⟩
        · dsimp only; rw [List.cons_append, ← h1]
        · simpa using h2
        · intro x hx
          rcases List.mem_cons.mp hx with rfl | hx
          · exact h
          · exact h3 x hx
        · simpa using h4
      · rename_i h
        refine ⟨by simp, by simp, by simp, .inr ?_⟩
        rw [starts_cons, ← hex_iff]; exact h

theorem takeHex_complete (n : Nat) (d r : List Nat) (hd : ∀ c ∈ d, isHexDigit c = true) (hl : d.length ≤ n)
    (he : d.length = n ∨ ¬ Starts Hex r) : takeHex n (d ++ r) = (d, r) := by
  induction n generalizing d with
  | zero =>
    obtain rfl : d = [] := List.eq_nil_of_length_eq_zero (by omega)
    rfl
  | succ n ih =>
    cases d with
    | nil =>
      rcases he with he | he
      · simp at he
      · cases r with
        | nil => rfl
        | cons c r =>
          rw [starts_cons, ← hex_iff] at he
          simp [takeHex, he]
    | cons c d =>
      have := ih d (fun x hx => hd x (by simp [hx])) (by simpa using hl) (by simpa using he)
      rw [List.cons_append, takeHex, if_pos (hd c (by simp)), this]

theorem escape_value {n : Nat} : (if n = 0 ∨ isSurrogate n = true ∨ 0x10FFFF < n then 0xFFFD else n) = escaped n := by
  unfold escaped
  have : (n = 0 ∨ isSurrogate n = true ∨ 0x10FFFF < n) ↔ (n = 0 ∨ ¬ IsScalar n) := by
    unfold isSurrogate IsScalar
    simp only [Bool.and_eq_true, decide_eq_true_eq]
    omega
  simp only [this]

theorem hex32 {d : List Nat} {n : Nat} (h : Numeral 16 d n) (hl : d.length ≤ 6) : fromChars32 16 d = some n := by
  obtain ⟨h1, h2, rfl⟩ := (numeral_iff _ _ _).mp h
  rw [fromChars32_eq h1 h2, if_pos]
  refine Nat.lt_of_lt_of_le (fromChars_lt d fun c hc => by rw [← digitOf16]; exact h2 c hc) ?_
  calc 16 ^ d.length ≤ 16 ^ 6 := Nat.pow_le_pow_right (by omega) hl
    _ ≤ 2 ^ 32 := by norm_num

/-- `consume_escaped_code_point` finds exactly the escapes. -/
theorem escape_iff (s r : List Nat) (c : Nat) : consumeEscaped s = some (r, c) ↔ Escape s c r := by
  constructor
  · intro h
    unfold consumeEscaped at h
    split at h
    · simp only [Option.some.injEq, Prod.mk.injEq] at h
      obtain ⟨rfl, rfl⟩ := h
      exact .eof
    · rename_i cp r'
      split at h
      · rename_i hc
        obtain ⟨h1, h2, h3, h4⟩ := takeHex_sound 5 r'
        generalize takeHex 5 r' = p at *
        obtain ⟨d, r1⟩ := p
        dsimp only at h h1 h2 h3 h4
        have hN : Numeral 16 (cp :: d) (fromChars 16 (cp :: d)) := by
          rw [numeral_iff]
          refine ⟨by simp, ?_, rfl⟩
          intro x hx
          rw [digitOf16, ← hex_eq]
          rcases List.mem_cons.mp hx with rfl | hx
          · exact hc
          · exact h3 x hx
        rw [hex32 hN (by simpa using h2)] at h
        simp only [Option.some.injEq, Prod.mk.injEq, escape_value] at h
        obtain ⟨h5, rfl⟩ := h
        subst h1
        have key : ∀ w, r1 = w ++ r → ((w = [] ∧ ¬ Starts Ws r) ∨ ∃ c, Ws c ∧ w = [c]) →
            Escape (cp :: (d ++ r1)) (escaped (fromChars 16 (cp :: d))) r := by
          intro w hw hws
          have := Escape.hex (d := cp :: d) (w := w) (r := r) hN (by simpa using h2) (by rw [← hw]; simpa using h4) hws
          rw [List.append_assoc, ← hw] at this
          exact this
        cases r1 with
        | nil =>
          subst h5
          exact key [] rfl (.inl ⟨rfl, by simp [skipOneWs]⟩)
        | cons x r1 =>
          rw [skipOneWs] at h5
          split at h5
          · rename_i hx
            subst h5
            exact key [x] rfl (.inr ⟨x, (ws_iff x).mp hx, rfl⟩)
          · rename_i hx
            subst h5
            exact key [] rfl (.inl ⟨rfl, by rw [starts_cons, ← ws_iff]; exact hx⟩)
      · rename_i hc
        simp only [Option.some.injEq, Prod.mk.injEq] at h
        obtain ⟨rfl, rfl⟩ := h
        exact .plain (by rw [← hex_iff]; exact hc)
  · intro h
    cases h with
    | eof => rfl
    | plain h => rw [← hex_iff] at h; simp [consumeEscaped, h]
    | @hex d w r n hN hl hm hw =>
      cases d with
      | nil => exact absurd rfl ((numeral_iff _ _ _).mp hN).1
      | cons x d =>
        have hd := ((numeral_iff _ _ _).mp hN).2.1
        have hx : isHexDigit x = true := by rw [hex_eq, ← digitOf16]; exact hd x (by simp)
        rw [List.append_assoc, List.cons_append, consumeEscaped, if_pos hx,
          takeHex_complete 5 d (w ++ r) (fun y hy => by rw [hex_eq, ← digitOf16]; exact hd y (by simp [hy])) (by simpa using hl) (by simpa using hm)]
        dsimp only
        rw [hex32 hN hl]
        have : skipOneWs (w ++ r) = r := by
          rcases hw with ⟨rfl, hw⟩ | ⟨c, hc, rfl⟩
          · cases r with
            | nil => rfl
            | cons y r => rw [starts_cons, ← ws_iff] at hw; simp [skipOneWs, hw]
          · simp [skipOneWs, (ws_iff c).mpr hc]
        simp [this, escape_value]

theorem escape_total (s : List Nat) : ∃ r c, consumeEscaped s = some (r, c) := by
  cases h : consumeEscaped s with
  | some p => exact ⟨_, _, rfl⟩
  | none =>
    exfalso
    unfold consumeEscaped at h
    split at h
    · cases h
    · rename_i cp r'
      split at h
      · rename_i hc
        obtain ⟨-, h2, h3, -⟩ := takeHex_sound 5 r'
        have hN : Numeral 16 (cp :: (takeHex 5 r').1) (fromChars 16 (cp :: (takeHex 5 r').1)) := by
          rw [numeral_iff]
          refine ⟨by simp, ?_, rfl⟩
          intro x hx
          rw [digitOf16, ← hex_eq]
          rcases List.mem_cons.mp hx with rfl | hx
          · exact hc
          · exact h3 x hx
        dsimp only at h
        rw [hex32 hN (by simpa using h2)] at h
        cases h
      · cases h

theorem escape_suffix {s r : List Nat} {c : Nat} (h : Escape s c r) : r <:+ s := by
  cases h with
  | eof => exact List.suffix_refl _
  | plain h => exact List.suffix_cons _ _
  | hex => exact List.suffix_append _ _

theorem escape_shorter {s r : List Nat} {c : Nat} (h : Escape s c r) (hs : s ≠ []) : r.length < s.length := by
  cases h with
  | eof => exact absurd rfl hs
  | plain h => simp
  | hex hN =>
    have := List.length_pos_iff.mpr ((numeral_iff _ _ _).mp hN).1
    simp only [List.length_append]; omega

theorem escape_det {s r r' : List Nat} {c c' : Nat} (h : Escape s c r) (h' : Escape s c' r') : c = c' ∧ r = r' := by
  rw [← escape_iff] at h h'
  rw [h] at h'
  simp only [Option.some.injEq, Prod.mk.injEq] at h'
  exact ⟨h'.2, h'.1⟩

/-- The text does not end in a reverse solidus. -/
def NoTail (s : List Nat) : Prop := ¬ [0x5C] <:+ s

theorem NoTail.suffix {s r : List Nat} (h : NoTail s) (hr : r <:+ s) : NoTail r := fun h' => h (h'.trans hr)

theorem validEscape_iff {s : List Nat} (h : NoTail s) : validEscape s = true ↔ ValidEscape s := by
  unfold validEscape ValidEscape
  split
  · rename_i a b r
    rw [Bool.and_eq_true, beq_iff_eq, Bool.not_eq_true']
    constructor
    · rintro ⟨rfl, h2⟩
      exact ⟨_, rfl, by rw [starts_cons, ← newline_iff, h2]; simp⟩
    · rintro ⟨r', h1, h2⟩
      injection h1 with h1 h1'
      subst h1'
      rw [starts_cons, ← newline_iff] at h2
      exact ⟨h1, by simpa using h2⟩
  · rename_i hs
    constructor
    · intro h; cases h
    · rintro ⟨r', rfl, h2⟩
      cases r' with
      | nil => exact absurd (List.suffix_refl _) h
      | cons b r => exact absurd rfl (hs _ _ _)

/-- Whatever the end: what the code takes for a valid escape is one. -/
theorem validEscape_sound {s : List Nat} (h : validEscape s = true) : ValidEscape s := by
  unfold validEscape at h
  split at h
  · rename_i a b r
    rw [Bool.and_eq_true, beq_iff_eq, Bool.not_eq_true'] at h
    obtain ⟨rfl, h2⟩ := h
    exact ⟨_, rfl, by rw [starts_cons, ← newline_iff, h2]; simp⟩
  · cases h

theorem startsIdent_iff {s : List Nat} (h : NoTail s) : startsIdent s = true ↔ StartsIdent s := by
  cases s with
  | nil =>
    constructor
    · intro h; cases h
    · rintro (h | ⟨r, h, -⟩ | ⟨r, h, -⟩)
      · simp at h
      · cases h
      · cases h
  | cons a r =>
    rw [startsIdent.eq_def]
    unfold StartsIdent
    dsimp only
    split
    · rename_i ha
      subst ha
      have h1 : ¬ Starts IdentStart (0x2D :: r) := by rw [starts_cons]; unfold IdentStart Letter; omega
      have h2 : ¬ ValidEscape (0x2D :: r) := by rintro ⟨r, h, -⟩; injection h with h; cases h
      cases r with
      | nil =>
        constructor
        · intro h; cases h
        · rintro (h | h | ⟨r, h, h3⟩)
          · exact absurd h h1
          · exact absurd h h2
          · injection h with _ h
            subst h
            rcases h3 with h3 | h3 | ⟨r, h3, -⟩
            · simp at h3
            · simp at h3
            · cases h3
      | cons b r =>
        have hn : NoTail (b :: r) := h.suffix (List.suffix_cons _ _)
        simp only [Bool.or_eq_true, identStart_iff, beq_iff_eq, validEscape_iff hn, h1, h2, false_or]
        constructor
        · intro h; refine ⟨_, rfl, ?_⟩; simpa [or_assoc] using h
        · rintro ⟨r', h3, h4⟩
          injection h3 with _ h3
          subst h3
          simpa [or_assoc] using h4
    · rename_i ha
      have h1 : ¬ ∃ r', a :: r = 0x2D :: r' ∧ (Starts IdentStart r' ∨ Starts (· = 0x2D) r' ∨ ValidEscape r') := by
        rintro ⟨r', h, -⟩; injection h with h _; exact ha h
      simp only [h1, or_false, starts_cons, ← identStart_iff]
      split
      · rename_i hi; simp [hi]
      · rename_i hi
        simp only [hi, Bool.false_eq_true, false_or]
        split
        · rw [validEscape_iff h]
        · rename_i hb
          constructor
          · intro h; cases h
          · rintro ⟨r', h, -⟩; injection h with h _; exact absurd h hb

end Verif.Proof.CssTok
