import Verif.Proof.CssName
import Verif.Spec.CssValue
import Mathlib.Tactic.Ring
import Mathlib.Tactic.FieldSimp
import Mathlib.Tactic.NormNum
namespace Verif.Proof.CssTok
open Verif.Model.Infra Verif.Model.Unicode Verif.Model.Coder Verif.Model.Percent Verif.Model.Host Verif.Model.CssTok
open Verif.Spec Verif.Spec.Infra Verif.Spec.Percent Verif.Spec.Host Verif.Spec.CssTok
open Verif.Proof.Host4 Verif.Proof.HostParse Verif.Proof.Digits

theorem digitOf10 (c : Nat) : isDigitOf 10 c = isDigit c := by
  rw [Bool.eq_iff_iff, digit_iff]
  unfold isDigitOf Digit isAsciiHexDigit isAsciiUpperHexDigit isAsciiLowerHexDigit isAsciiDigit digitVal
  simp only [Bool.or_eq_true, Bool.and_eq_true, decide_eq_true_eq]
  split
  · omega
  · split <;> omega

/-- All digits. -/
def Ds (d : List Nat) : Prop := ∀ c ∈ d, Digit c

theorem numeral10 {d : List Nat} {n : Nat} : Numeral 10 d n ↔ d ≠ [] ∧ Ds d ∧ n = fromChars 10 d := by
  rw [numeral_iff]
  unfold Ds
  simp only [digitOf10, digit_iff]

theorem fromChars_app (a b : List Nat) : fromChars 10 (a ++ b) = fromChars 10 a * 10 ^ b.length + fromChars 10 b := by
  induction b using List.reverseRecOn with
  | nil => simp [fromChars]
  | append_singleton b c ih =>
    rw [← List.append_assoc, fromChars_append, fromChars_append, ih]
    simp only [List.length_append, List.length_cons, List.length_nil, Nat.zero_add, pow_succ]
    ring

/-! ### Runs of digits, signs, fractions and exponents -/

theorem digits_sound (s : List Nat) : s = (takeDigits s).1 ++ (takeDigits s).2 ∧ Ds (takeDigits s).1 ∧
    ¬ Starts Digit (takeDigits s).2 := by
  refine ⟨(List.takeWhile_append_dropWhile).symm, ?_, ?_⟩
  · intro c hc
    have := List.all_takeWhile (p := isDigit) (l := s)
    exact (digit_iff c).mp (List.all_eq_true.mp this c hc)
  · rintro ⟨c, r, h, hc⟩
    have := List.head?_dropWhile_not isDigit s
    rw [show s.dropWhile isDigit = c :: r from h] at this
    simp only [List.head?_cons] at this
    rw [(digit_iff c).mpr hc] at this
    cases this

theorem digits_complete {d r : List Nat} (hd : Ds d) (hr : ¬ Starts Digit r) : takeDigits (d ++ r) = (d, r) := by
  have h1 : ∀ c ∈ d, isDigit c = true := fun c hc => (digit_iff c).mpr (hd c hc)
  have h2 : r.takeWhile isDigit = [] ∧ r.dropWhile isDigit = r := by
    cases r with
    | nil => simp
    | cons c r =>
      rw [starts_cons, ← digit_iff] at hr
      simp [hr]
  unfold takeDigits
  rw [List.takeWhile_append_of_pos h1, List.dropWhile_append_of_pos h1, h2.1, h2.2, List.append_nil]

/-- What `takeSign` takes. -/
def IsSign (a : List Nat) : Prop := a = [] ∨ a = [0x2B] ∨ a = [0x2D]

def Signed (c : Nat) : Prop := c = 0x2B ∨ c = 0x2D

theorem sign_complete {a r : List Nat} (ha : IsSign a) (hr : a = [] → ¬ Starts Signed r) : takeSign (a ++ r) = (a, r) := by
  rcases ha with rfl | rfl | rfl
  · cases r with
    | nil => rfl
    | cons c r =>
      have := hr rfl
      rw [starts_cons] at this
      rw [List.nil_append, takeSign, if_neg (show ¬ (c = 0x2B ∨ c = 0x2D) from this)]
  · rfl
  · rfl

theorem sign_sound (s : List Nat) : s = (takeSign s).1 ++ (takeSign s).2 ∧ IsSign (takeSign s).1 ∧
    ((takeSign s).1 = [] → ¬ Starts Signed s) := by
  cases s with
  | nil => exact ⟨rfl, .inl rfl, by simp⟩
  | cons c r =>
    rw [takeSign]
    split
    · rename_i h
      refine ⟨rfl, ?_, by simp⟩
      rcases h with rfl | rfl
      · exact .inr (.inl rfl)
      · exact .inr (.inr rfl)
    · rename_i h
      exact ⟨rfl, .inl rfl, fun _ => by rw [starts_cons]; exact h⟩

/-- A fraction and its digits, or nothing. -/
def IsFrac (fr fp : List Nat) : Prop := (fr = [] ∧ fp = []) ∨ (fr = 0x2E :: fp ∧ fp ≠ [] ∧ Ds fp)

theorem frac_sound (s : List Nat) : s = (takeFraction s).1 ++ (takeFraction s).2 ∧ ∃ fp, IsFrac (takeFraction s).1 fp ∧
    (fp ≠ [] → ¬ Starts Digit (takeFraction s).2) ∧ (fp = [] → ¬ ∃ b r, s = 0x2E :: b :: r ∧ Digit b) := by
  unfold takeFraction
  split
  · rename_i a b r
    split
    · rename_i h
      obtain ⟨rfl, hb⟩ := h
      obtain ⟨h1, h2, h3⟩ := digits_sound r
      refine ⟨by dsimp only; rw [List.cons_append, List.cons_append, ← h1], b :: (takeDigits r).1, .inr ⟨rfl, by simp, ?_⟩,
        fun _ => h3, fun h => by simp at h⟩
      intro c hc
      rcases List.mem_cons.mp hc with rfl | hc
      · exact (digit_iff _).mp hb
      · exact h2 c hc
    · rename_i h
      refine ⟨rfl, [], .inl ⟨rfl, rfl⟩, by simp, ?_⟩
      rintro - ⟨b', r', h1, h2⟩
      injection h1 with h1 h3
      injection h3 with h3 h4
      subst h1 h3
      exact h ⟨rfl, (digit_iff _).mpr h2⟩
  · rename_i h
    refine ⟨rfl, [], .inl ⟨rfl, rfl⟩, by simp, ?_⟩
    rintro - ⟨b', r', h1, h2⟩
    exact h _ _ _ h1

/-- An exponent, its sign and digits, or nothing. -/
def IsExp (ex b ep : List Nat) : Prop :=
  (ex = [] ∧ b = [] ∧ ep = []) ∨ (∃ c, (c = 0x45 ∨ c = 0x65) ∧ ex = c :: b ++ ep ∧ IsSign b ∧ ep ≠ [] ∧ Ds ep)

theorem exp_complete {c : Nat} {b ep r : List Nat} (hc : c = 0x45 ∨ c = 0x65) (hb : IsSign b) (he : ep ≠ []) (hd : Ds ep)
    (hr : ¬ Starts Digit r) : takeExponent (c :: b ++ ep ++ r) = (c :: b ++ ep, r) := by
  cases ep with
  | nil => exact absurd rfl he
  | cons x ep =>
    have hx := hd x (by simp)
    have hx' := (digit_iff x).mpr hx
    have ht := digits_complete (d := ep) (fun y hy => hd y (by simp [hy])) hr
    rcases hb with rfl | rfl | rfl
    · show takeExponent (c :: x :: (ep ++ r)) = _
      rw [takeExponent.eq_def]
      dsimp only
      rw [if_pos ⟨hc, hx'⟩, ht]; rfl
    · show takeExponent (c :: 0x2B :: x :: (ep ++ r)) = _
      rw [takeExponent.eq_def]
      dsimp only
      rw [if_neg (by rintro ⟨-, h⟩; exact absurd h (by decide)), if_pos ⟨hc, .inl rfl, hx'⟩, ht]; rfl
    · show takeExponent (c :: 0x2D :: x :: (ep ++ r)) = _
      rw [takeExponent.eq_def]
      dsimp only
      rw [if_neg (by rintro ⟨-, h⟩; exact absurd h (by decide)), if_pos ⟨hc, .inr rfl, hx'⟩, ht]; rfl

/-- An exponent is in front. -/
def HasExp (s : List Nat) : Prop := ∃ c b x r, (c = 0x45 ∨ c = 0x65) ∧ IsSign b ∧ Digit x ∧ s = c :: b ++ x :: r

theorem exp_sound (s : List Nat) : s = (takeExponent s).1 ++ (takeExponent s).2 ∧ ∃ b ep, IsExp (takeExponent s).1 b ep ∧
    (ep ≠ [] → ¬ Starts Digit (takeExponent s).2) ∧ (ep = [] → ¬ HasExp s) := by
  by_cases h : HasExp s
  · obtain ⟨c, b, x, r, hc, hb, hx, rfl⟩ := h
    obtain ⟨h1, h2, h3⟩ := digits_sound r
    generalize takeDigits r = p at *
    obtain ⟨d, r'⟩ := p
    dsimp only at h1 h2 h3
    subst h1
    have hd : Ds (x :: d) := by
      intro y hy
      rcases List.mem_cons.mp hy with rfl | hy
      · exact hx
      · exact h2 y hy
    have := exp_complete (ep := x :: d) (r := r') hc hb (by simp) hd h3
    have e : c :: b ++ x :: (d ++ r') = c :: b ++ x :: d ++ r' := by simp
    rw [e, this]
    exact ⟨rfl, b, x :: d, .inr ⟨c, hc, rfl, hb, by simp, hd⟩, fun _ => h3, fun h => by simp at h⟩
  · have : takeExponent s = ([], s) := by
      unfold takeExponent
      split
      · rename_i a b r
        split
        · rename_i h1
          exact absurd ⟨a, [], b, r, h1.1, .inl rfl, (digit_iff _).mp h1.2, rfl⟩ h
        · split
          · rename_i c r'
            split
            · rename_i h1
              refine absurd ⟨a, [b], c, r', h1.1, ?_, (digit_iff _).mp h1.2.2, rfl⟩ h
              rcases h1.2.1 with rfl | rfl
              · exact .inr (.inl rfl)
              · exact .inr (.inr rfl)
            · rfl
          · rfl
      · rfl
    rw [this]
    exact ⟨rfl, [], [], .inl ⟨rfl, rfl, rfl⟩, by simp, fun _ => h⟩

/-! ### The parts of a number -/

theorem digits32_some {d : List Nat} (hd : Ds d) (h : fromChars 10 d < 2 ^ 32) : digits32 d = some (fromChars 10 d) := by
  unfold digits32
  split
  · rename_i h; subst h; rfl
  · rename_i hne
    rw [fromChars32_eq hne (fun c hc => by rw [digitOf10, digit_iff]; exact hd c hc), if_pos h]

theorem digits32_none {d : List Nat} (hd : Ds d) (h : ¬ fromChars 10 d < 2 ^ 32) : digits32 d = none := by
  unfold digits32
  split
  · rename_i h'; subst h'; exact absurd (by decide) h
  · rename_i hne
    rw [fromChars32_eq hne (fun c hc => by rw [digitOf10, digit_iff]; exact hd c hc), if_neg h]

theorem nodigit_frac {fr fp t : List Nat} (h : IsFrac fr fp) (ht : ¬ Starts Digit t) : ¬ Starts Digit (fr ++ t) := by
  rcases h with ⟨rfl, -⟩ | ⟨rfl, -, -⟩
  · exact ht
  · simp [Digit]

theorem nodigit_exp {ex b ep : List Nat} (h : IsExp ex b ep) : ¬ Starts Digit ex := by
  rcases h with ⟨rfl, -⟩ | ⟨c, hc, rfl, -⟩
  · simp
  · rw [List.cons_append, starts_cons]; unfold Digit; omega

/-- `convert_string_to_number` on a text with these parts. -/
theorem convert_eq {a ip fr fp ex b ep : List Nat} (ha : IsSign a) (hi : Ds ip) (hf : IsFrac fr fp) (he : IsExp ex b ep) :
    convertNumber (a ++ ip ++ fr ++ ex) =
      match digits32 ip, digits32 fp, digits32 ep with
      | some i, some f, some e => some ⟨decide (a = [0x2D]), i, f, fp.length, decide (b = [0x2D]), e⟩
      | _, _, _ => none := by
  have h1 : takeSign (a ++ (ip ++ (fr ++ ex))) = (a, ip ++ (fr ++ ex)) := by
    apply sign_complete ha
    intro _
    cases ip with
    | cons x ip => have := hi x (by simp); rw [List.cons_append, starts_cons]; unfold Signed Digit at *; omega
    | nil =>
      rcases hf with ⟨rfl, -⟩ | ⟨rfl, -, -⟩
      · rcases he with ⟨rfl, -⟩ | ⟨c, hc, rfl, -⟩
        · simp
        · simp only [List.nil_append, List.cons_append, starts_cons]; unfold Signed; omega
      · simp [Signed]
  have h2 : takeDigits (ip ++ (fr ++ ex)) = (ip, fr ++ ex) := digits_complete hi (nodigit_frac hf (nodigit_exp he))
  have h3 : takeDigits (skipPoint (fr ++ ex)) = (fp, ex) := by
    rcases hf with ⟨rfl, rfl⟩ | ⟨rfl, -, hd⟩
    · have : skipPoint ([] ++ ex) = ex := by
        rcases he with ⟨rfl, -⟩ | ⟨c, hc, rfl, -⟩
        · rfl
        · simp only [List.nil_append, List.cons_append, skipPoint]; rw [if_neg (by omega)]
      rw [this]
      exact digits_complete (d := []) (by simp [Ds]) (nodigit_exp he)
    · simp only [List.cons_append, skipPoint, if_true]
      exact digits_complete hd (nodigit_exp he)
  have h4 : takeSign (skipE ex) = (b, ep) := by
    rcases he with ⟨rfl, rfl, rfl⟩ | ⟨c, hc, rfl, hb, hne, hd⟩
    · rfl
    · simp only [List.cons_append, skipE, if_pos hc]
      apply sign_complete hb
      intro _
      cases ep with
      | nil => simp
      | cons x ep => have := hd x (by simp); rw [starts_cons]; unfold Signed Digit at *; omega
  have h5 : takeDigits ep = (ep, []) := by
    have : Ds ep := by
      rcases he with ⟨-, -, rfl⟩ | ⟨c, hc, -, hb, hne, hd⟩
      · simp [Ds]
      · exact hd
    have := digits_complete (r := []) this (by simp)
    rwa [List.append_nil] at this
  rw [List.append_assoc, List.append_assoc]
  unfold convertNumber
  rw [h1]; dsimp only
  rw [h2]; dsimp only
  cases digits32 ip with
  | none => rfl
  | some i =>
    dsimp only
    rw [h3]; dsimp only
    cases digits32 fp with
    | none => rfl
    | some f =>
      dsimp only
      rw [h4]; dsimp only
      rw [h5]; dsimp only
      cases digits32 ep <;> rfl

/-- The parts `consume_number` finds. -/
structure Parts (s a ip fr fp ex b ep r : List Nat) : Prop where
  text : s = a ++ ip ++ fr ++ ex ++ r
  ha : IsSign a
  hi : Ds ip
  hf : IsFrac fr fp
  he : IsExp ex b ep
  noSign : a = [] → ¬ Starts Signed s
  noInt : ¬ Starts Digit (fr ++ ex ++ r)
  noFrac : fp = [] → ¬ ∃ x t, ex ++ r = 0x2E :: x :: t ∧ Digit x
  noFracDigit : fp ≠ [] → ¬ Starts Digit (ex ++ r)
  noExp : ep = [] → ¬ HasExp r
  noExpDigit : ep ≠ [] → ¬ Starts Digit r

theorem parts (s : List Nat) : ∃ a ip fr fp ex b ep r, Parts s a ip fr fp ex b ep r ∧
    consumeNumber s = (convertNumber (a ++ ip ++ fr ++ ex)).map fun v => (r, v, decide (fr = [] ∧ ex = [])) := by
  obtain ⟨a1, a2, a3⟩ := sign_sound s
  obtain ⟨b1, b2, b3⟩ := digits_sound (takeSign s).2
  obtain ⟨c1, fp, c2, c3, c4⟩ := frac_sound (takeDigits (takeSign s).2).2
  obtain ⟨d1, b, ep, d2, d3, d4⟩ := exp_sound (takeFraction (takeDigits (takeSign s).2).2).2
  refine ⟨(takeSign s).1, (takeDigits (takeSign s).2).1, (takeFraction (takeDigits (takeSign s).2).2).1, fp,
    (takeExponent (takeFraction (takeDigits (takeSign s).2).2).2).1, b, ep,
    (takeExponent (takeFraction (takeDigits (takeSign s).2).2).2).2, ?_, ?_⟩
  · refine ⟨?_, a2, b2, c2, d2, a3, ?_, ?_, ?_, ?_, d3⟩
    · rw [List.append_assoc, ← d1, List.append_assoc, ← c1, List.append_assoc, ← b1, ← a1]
    · rw [List.append_assoc, ← d1, ← c1]; exact b3
    · intro h; rw [← d1]; intro hx; apply c4 h
      rcases c2 with ⟨c2, -⟩ | ⟨-, h', -⟩
      · rw [c2, List.nil_append] at c1; rw [c1]; exact hx
      · exact absurd h h'
    · intro h; rw [← d1]; exact c3 h
    · intro h; have := d4 h
      rcases d2 with ⟨d2, -, -⟩ | ⟨-, -, -, -, h', -⟩
      · rw [d2, List.nil_append] at d1; rw [← d1]; exact this
      · exact absurd h h'
  · unfold consumeNumber
    dsimp only
    cases convertNumber _ <;> rfl

end Verif.Proof.CssTok
