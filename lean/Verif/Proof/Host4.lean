import Verif.Model.Host
import Verif.Spec.Host
import Verif.Proof.Digits
import Verif.Proof.Infra
import Mathlib.Tactic.IntervalCases
import Mathlib.Data.List.Induction
import Mathlib.Tactic.Ring
namespace Verif.Proof.Host4
open Verif.Model.Infra Verif.Model.Unicode Verif.Model.Coder Verif.Model.Percent Verif.Model.Host
open Verif.Spec Verif.Proof.Unicode
open Verif.Spec.Infra Verif.Spec.Percent Verif.Spec.Host Verif.Proof.Digits

theorem hexDigit_iff (c v : Nat) : HexDigit c v ↔ isAsciiHexDigit c = true ∧ v = digitVal c := by
  unfold HexDigit isAsciiHexDigit isAsciiUpperHexDigit isAsciiLowerHexDigit isAsciiDigit digitVal
  simp only [Bool.or_eq_true, Bool.and_eq_true, decide_eq_true_eq]
  split
  · omega
  · split <;> omega

theorem isDigitOf_lt {b c : Nat} (h : isDigitOf b c = true) : c < 128 := by
  unfold isDigitOf isAsciiHexDigit isAsciiUpperHexDigit isAsciiLowerHexDigit isAsciiDigit at h
  simp only [Bool.or_eq_true, Bool.and_eq_true, decide_eq_true_eq] at h
  omega

theorem numeral_iff (b : Nat) (s : List Nat) (n : Nat) :
    Numeral b s n ↔ s ≠ [] ∧ (∀ c ∈ s, isDigitOf b c = true) ∧ n = fromChars b s := by
  constructor
  · intro h
    induction h with
    | one h1 h2 =>
      obtain ⟨h3, rfl⟩ := (hexDigit_iff _ _).mp h1
      simp [isDigitOf, h3, h2, fromChars]
    | @snoc s n c v h h1 h2 ih =>
      obtain ⟨h3, rfl⟩ := (hexDigit_iff _ _).mp h1
      obtain ⟨i1, i2, rfl⟩ := ih
      refine ⟨by simp, ?_, (fromChars_append _ _ _).symm⟩
      intro x hx
      rcases List.mem_append.mp hx with hx | hx
      · exact i2 x hx
      · obtain rfl := List.mem_singleton.mp hx
        simp [isDigitOf, h3, h2]
  · rintro ⟨h1, h2, rfl⟩
    induction s using List.reverseRecOn with
    | nil => exact absurd rfl h1
    | append_singleton s c ih =>
      have hc := h2 c (by simp)
      simp only [isDigitOf, Bool.and_eq_true, decide_eq_true_eq] at hc
      have hd := (hexDigit_iff c _).mpr ⟨hc.1, rfl⟩
      rw [fromChars_append]
      by_cases hs : s = []
      · subst hs
        simpa [fromChars] using Numeral.one hd hc.2
      · exact .snoc (ih hs fun x hx => h2 x (by simp [hx])) hd hc.2

theorem allowed8 (c : Nat) : ("012345678".toList.map Char.toNat).contains c = (isDigitOf 8 c || c == 0x38) := by
  have : ∀ c < 128, ("012345678".toList.map Char.toNat).contains c = (isDigitOf 8 c || c == 0x38) := by decide +kernel
  by_cases h : c < 128
  · exact this c h
  · have h1 : isDigitOf 8 c = false := by
      by_contra hh; exact h (isDigitOf_lt (by simpa using hh))
    have h2 : (c == 0x38) = false := by simp; omega
    rw [h1, h2]
    simp; omega

theorem allowed10 (c : Nat) : ("0123456789".toList.map Char.toNat).contains c = isDigitOf 10 c := by
  have : ∀ c < 128, ("0123456789".toList.map Char.toNat).contains c = isDigitOf 10 c := by decide +kernel
  by_cases h : c < 128
  · exact this c h
  · have h1 : isDigitOf 10 c = false := by
      by_contra hh; exact h (isDigitOf_lt (by simpa using hh))
    rw [h1]
    simp; omega

theorem allowed16 (c : Nat) : ("0123456789abcdefABCDEF".toList.map Char.toNat).contains c = isDigitOf 16 c := by
  have : ∀ c < 128, ("0123456789abcdefABCDEF".toList.map Char.toNat).contains c = isDigitOf 16 c := by decide +kernel
  by_cases h : c < 128
  · exact this c h
  · have h1 : isDigitOf 16 c = false := by
      by_contra hh; exact h (isDigitOf_lt (by simpa using hh))
    rw [h1]
    simp; omega

theorem map_mod {s : List Nat} (h : ∀ c ∈ s, c < 256) : s.map (· % 256) = s := by
  induction s with
  | nil => rfl
  | cons c s ih =>
    rw [List.map_cons, ih fun x hx => h x (by simp [hx]), Nat.mod_eq_of_lt (h c (by simp))]

theorem takeWhile_all {p : Nat → Bool} {s : List Nat} (h : ∀ c ∈ s, p c = true) : s.takeWhile p = s := by
  induction s with
  | nil => rfl
  | cons c s ih => rw [List.takeWhile_cons, if_pos (h c (by simp)), ih fun x hx => h x (by simp [hx])]

/-- What a radix allows, as the code has it. -/
def allowed (r c : Nat) : Bool := isDigitOf r c || (r == 8 && c == 0x38)

theorem digits_eq (s : List Nat) (r : Nat) (hr : r = 8 ∨ r = 10 ∨ r = 16) (e : Bool) :
    parseIpv4Digits s r e = if s = [] then some (none, e) else if ∀ c ∈ s, allowed r c = true then
      (fromChars32 r s).map (fun i => (some i, e)) else some (none, e) := by
  have key : ∀ c, (((if r = 8 then "012345678" else if r = 10 then "0123456789" else "0123456789abcdefABCDEF").toList.map
      Char.toNat).contains c) = allowed r c := by
    intro c
    rcases hr with rfl | rfl | rfl
    · rw [if_pos rfl, allowed8]; simp [allowed]
    · rw [if_neg (by omega), if_pos rfl, allowed10]; simp [allowed]
    · rw [if_neg (by omega), if_neg (by omega), allowed16]; simp [allowed]
  unfold parseIpv4Digits
  dsimp only
  by_cases hs : s = []
  · rw [if_pos hs, if_pos hs]
  rw [if_neg hs, if_neg hs]
  simp only [key]
  by_cases ha : ∀ c ∈ s, allowed r c = true
  · rw [if_pos ha, if_pos (List.all_eq_true.mpr ha), map_mod]
    · cases fromChars32 r s <;> rfl
    · intro c hc
      have := ha c hc
      simp only [allowed, Bool.or_eq_true, Bool.and_eq_true, beq_iff_eq] at this
      rcases this with h | h
      · have := isDigitOf_lt h; omega
      · omega
  · rw [if_neg ha, if_neg (fun h => ha (List.all_eq_true.mp h))]

theorem fromChars32_eq {r : Nat} {s : List Nat} (hs : s ≠ []) (h : ∀ c ∈ s, isDigitOf r c = true) :
    fromChars32 r s = if fromChars r s < 2 ^ 32 then some (fromChars r s) else none := by
  unfold fromChars32
  dsimp only
  rw [takeWhile_all h, if_neg hs]

/-- The digits without the octal 8. -/
theorem digits_spec (s : List Nat) (r : Nat) (hr : r = 8 ∨ r = 10 ∨ r = 16) (e : Bool) (h8 : r = 8 → 0x38 ∉ s)
    (hn : ∀ n, Numeral r s n → n < 2 ^ 32) :
    ∃ o, parseIpv4Digits s r e = some (o, e) ∧ ∀ n, o = some n ↔ Numeral r s n := by
  rw [digits_eq s r hr]
  by_cases hs : s = []
  · refine ⟨none, by rw [if_pos hs], fun n => ⟨fun h => (by cases h), fun h => ?_⟩⟩
    exact absurd hs ((numeral_iff r s n).mp h).1
  have hal : (∀ c ∈ s, allowed r c = true) ↔ ∀ c ∈ s, isDigitOf r c = true := by
    refine forall_congr' fun c => forall_congr' fun hc => ?_
    simp only [allowed, Bool.or_eq_true, Bool.and_eq_true, beq_iff_eq]
    refine ⟨fun h => h.elim id fun h => ?_, Or.inl⟩
    exact absurd (h.2 ▸ hc) (h8 h.1)
  by_cases ha : ∀ c ∈ s, isDigitOf r c = true
  · have hN := (numeral_iff r s _).mpr ⟨hs, ha, rfl⟩
    refine ⟨some (fromChars r s), ?_, fun n => ?_⟩
    · rw [if_neg hs, if_pos (hal.mpr ha), fromChars32_eq hs ha, if_pos (hn _ hN)]; rfl
    · rw [numeral_iff]
      simp only [Option.some.injEq]
      exact ⟨fun h => ⟨hs, ha, h.symm⟩, fun h => h.2.2.symm⟩
  · refine ⟨none, by rw [if_neg hs, if_neg (fun h => ha (hal.mp h))], fun n => ⟨fun h => (by cases h), fun h => ?_⟩⟩
    exact absurd ((numeral_iff r s n).mp h).2.1 ha

theorem number_spec (s : List Nat) (h8 : ¬ (s.head? = some 0x30 ∧ 0x38 ∈ s ∧ s[1]? ≠ some 0x78 ∧ s[1]? ≠ some 0x58))
    (hn : ∀ n b, V4Number s n b → n < 2 ^ 32) :
    ∃ o e, parseIpv4Number s = some (o, e) ∧ ∀ n b, (o = some n ∧ e = b) ↔ V4Number s n b := by
  match s with
  | [] =>
    refine ⟨none, false, by decide, fun n b => ⟨fun h => (by cases h.1), fun h => ?_⟩⟩
    cases h with
    | dec h _ => exact absurd rfl ((numeral_iff _ _ _).mp h).1
  | [a] =>
    obtain ⟨o, h1, h2⟩ := digits_spec [a] 10 (by omega) false (by omega)
      (fun n h => hn n false (.dec h (by by_cases ha : a = 0x30 <;> simp [ha])))
    refine ⟨o, false, h1, fun n b => ?_⟩
    rw [h2]
    constructor
    · rintro ⟨h, rfl⟩
      exact .dec h (by by_cases ha : a = 0x30 <;> simp [ha])
    · intro h
      cases h with
      | dec h _ => exact ⟨h, rfl⟩
      | oct h => exact absurd rfl ((numeral_iff _ _ _).mp h).1
  | a :: b :: t =>
    unfold parseIpv4Number
    dsimp only
    by_cases hx : a = 0x30 ∧ (b = 0x78 ∨ b = 0x58)
    · obtain ⟨rfl, hx⟩ := hx
      simp only [hx, and_self, if_true]
      obtain ⟨o, h1, h2⟩ := digits_spec t 16 (by omega) true (by omega) (fun n h => hn n true (.hex hx h))
      refine ⟨o, true, h1, fun n b' => ?_⟩
      rw [h2]
      constructor
      · rintro ⟨h, rfl⟩
        exact .hex hx h
      · intro h
        cases h with
        | dec h h' => simp at h'
        | oct h =>
          have := ((numeral_iff _ _ _).mp h).2.1 b (by simp)
          exfalso
          rcases hx with rfl | rfl <;> revert this <;> decide
        | hex _ h => exact ⟨h, rfl⟩
    · rw [if_neg hx]
      by_cases h0 : a = 0x30
      · subst h0
        have hb : b ≠ 0x78 ∧ b ≠ 0x58 := by simpa using hx
        rw [if_pos rfl]
        obtain ⟨o, h1, h2⟩ := digits_spec (b :: t) 8 (by omega) true
          (fun _ h => h8 ⟨rfl, List.mem_cons_of_mem _ h, by simp [hb.1], by simp [hb.2]⟩) (fun n h => hn n true (.oct h))
        refine ⟨o, true, h1, fun n b' => ?_⟩
        rw [h2]
        constructor
        · rintro ⟨h, rfl⟩
          exact .oct h
        · intro h
          cases h with
          | dec h h' => simp at h'
          | oct h => exact ⟨h, rfl⟩
          | hex hb' _ => exact absurd hb' (by simp [hb])
      · rw [if_neg h0]
        obtain ⟨o, h1, h2⟩ := digits_spec (a :: b :: t) 10 (by omega) false (by omega)
          (fun n h => hn n false (.dec h (by simp [h0])))
        refine ⟨o, false, h1, fun n b' => ?_⟩
        rw [h2]
        constructor
        · rintro ⟨h, rfl⟩
          exact .dec h (by simp [h0])
        · intro h
          cases h with
          | dec h _ => exact ⟨h, rfl⟩
          | oct h => exact absurd rfl h0
          | hex _ _ => exact absurd rfl h0

theorem digits_overflow {s : List Nat} {r : Nat} (hr : r = 8 ∨ r = 10 ∨ r = 16) (e : Bool) {n : Nat} (h : Numeral r s n)
    (hn : 2 ^ 32 ≤ n) : parseIpv4Digits s r e = none := by
  obtain ⟨h1, h2, rfl⟩ := (numeral_iff r s n).mp h
  rw [digits_eq s r hr, if_neg h1, if_pos (fun c hc => by simp [allowed, h2 c hc]), fromChars32_eq h1 h2,
    if_neg (by omega)]
  rfl

theorem number_overflow {s : List Nat} {n : Nat} {b : Bool} (h : V4Number s n b) (hn : 2 ^ 32 ≤ n) :
    parseIpv4Number s = none := by
  cases h with
  | dec h h' =>
    have hz : s ≠ [0x30] := by
      rintro rfl
      have := ((numeral_iff _ _ _).mp h).2.2
      simp [fromChars, digitVal] at this
      omega
    have h0 : s.head? ≠ some 0x30 := h'.resolve_left hz
    unfold parseIpv4Number
    split
    · rename_i a b t
      have ha : a ≠ 0x30 := by simpa using h0
      rw [if_neg (fun h => ha h.1), if_neg ha]
      exact digits_overflow (by omega) _ h hn
    · exact digits_overflow (by omega) _ h hn
  | @oct s _ h =>
    obtain ⟨h1, h2, _⟩ := (numeral_iff _ _ _).mp h
    cases s with
    | nil => exact absurd rfl h1
    | cons b t =>
      have hb := h2 b (by simp)
      have hb' : ¬ (b = 0x78 ∨ b = 0x58) := by rintro (rfl | rfl) <;> revert hb <;> decide
      unfold parseIpv4Number
      dsimp only
      rw [if_neg (fun h => hb' h.2), if_pos rfl]
      exact digits_overflow (by omega) _ h hn
  | hex hx h =>
    unfold parseIpv4Number
    dsimp only
    rw [if_pos ⟨rfl, hx⟩]
    exact digits_overflow (by omega) _ h hn

/-! ### The whole address -/

theorem split_eq (s : List Nat) (hs : ∀ c ∈ s, IsScalar c) : strictlySplit .c32 0x2E s = some (fields (· = 0x2E) s) := by
  have h := Verif.Proof.Infra.strictlySplit_eq .c32 0x2E (by decide) (by decide) s hs
  have e : ∀ t : List Nat, t.flatMap (encForm .c32) = t := by
    intro t; induction t with
    | nil => rfl
    | cons c t ih => rw [List.flatMap_cons, ih]; rfl
  simpa [e] using h

theorem fields_append (d : Nat) (p t : List Nat) (hp : d ∉ p) :
    fields (· = d) (p ++ d :: t) = p :: fields (· = d) t := by
  induction p with
  | nil => simp [fields]
  | cons c p ih =>
    have hc : c ≠ d := fun h => hp (by simp [h])
    rw [List.cons_append, fields, if_neg hc, ih fun h => hp (by simp [h])]

theorem fields_single (d : Nat) (p : List Nat) (hp : d ∉ p) : fields (· = d) p = [p] := by
  induction p with
  | nil => rfl
  | cons c p ih =>
    have hc : c ≠ d := fun h => hp (by simp [h])
    rw [fields, if_neg hc, ih fun h => hp (by simp [h])]

theorem fields_join (d : Nat) (ps : List (List Nat)) (hne : ps ≠ []) (h : ∀ p ∈ ps, d ∉ p) :
    fields (· = d) (join d ps) = ps := by
  induction ps with
  | nil => exact absurd rfl hne
  | cons p ps ih =>
    cases ps with
    | nil => exact fields_single d p (h p (by simp))
    | cons q ps =>
      rw [join, fields_append d p _ (h p (by simp)), ih (by simp) fun x hx => h x (List.mem_cons_of_mem _ hx)]
      simp

/-- The number parser does on a part what it should. -/
def Good (p : List Nat) : Prop := ∃ o e, parseIpv4Number p = some (o, e) ∧ ∀ n b, (o = some n ∧ e = b) ↔ V4Number p n b

theorem number_unique {p : List Nat} (h : Good p) {n m : Nat} {b c : Bool} (h1 : V4Number p n b) (h2 : V4Number p m c) :
    n = m ∧ b = c := by
  obtain ⟨o, e, _, h⟩ := h
  obtain ⟨rfl, rfl⟩ := (h n b).mpr h1
  obtain ⟨h3, h4⟩ := (h m c).mpr h2
  exact ⟨Option.some.inj h3, h4⟩

theorem number_nil (n : Nat) (b : Bool) : ¬ V4Number [] n b := by
  intro h
  cases h with
  | dec h _ => exact absurd rfl ((numeral_iff _ _ _).mp h).1

theorem parts_bad (ps : List (List Nat)) (hg : ∀ p ∈ ps, Good p) (hb : ∃ p ∈ ps, ¬ ∃ n b, V4Number p n b) (ve : Bool)
    (ns : List Nat) : parseIpv4Parts ps ve ns = some none := by
  induction ps generalizing ve ns with
  | nil => obtain ⟨p, h, _⟩ := hb; cases h
  | cons p ps ih =>
    rw [parseIpv4Parts]
    by_cases hp : p = []
    · rw [if_pos hp]
    rw [if_neg hp]
    obtain ⟨o, e, h1, h2⟩ := hg p (by simp)
    rw [h1]
    cases o with
    | none => rfl
    | some n =>
      dsimp only
      apply ih fun q hq => hg q (by simp [hq])
      obtain ⟨q, hq, hn⟩ := hb
      rcases List.mem_cons.mp hq with rfl | hq
      · exact absurd ⟨n, e, (h2 n e).mp ⟨rfl, rfl⟩⟩ hn
      · exact ⟨q, hq, hn⟩

theorem parts_good (ps : List (List Nat)) (hg : ∀ p ∈ ps, Good p) (ms : List Nat)
    (hm : List.Forall₂ (fun p n => ∃ b, V4Number p n b) ps ms) (ve : Bool) (ns : List Nat) :
    ∃ e, parseIpv4Parts ps ve ns = some (some (ns ++ ms, e)) ∧
      (e = true ↔ ve = true ∨ ∃ p ∈ ps, ∃ n, V4Number p n true) := by
  induction hm generalizing ve ns with
  | nil => exact ⟨ve, by rw [parseIpv4Parts, List.append_nil], by simp⟩
  | @cons p n ps ms h hm ih =>
    obtain ⟨b, hb⟩ := h
    have hp : p ≠ [] := by rintro rfl; exact number_nil n b hb
    obtain ⟨o, e, h1, h2⟩ := hg p (by simp)
    obtain ⟨rfl, rfl⟩ := (h2 n b).mpr hb
    obtain ⟨e', h3, h4⟩ := ih (fun q hq => hg q (by simp [hq])) (if e then true else ve) (ns ++ [n])
    refine ⟨e', ?_, ?_⟩
    · rw [parseIpv4Parts, if_neg hp, h1]
      dsimp only
      rw [h3, List.append_assoc]; rfl
    · rw [h4]
      constructor
      · rintro (h | ⟨q, hq, m, h⟩)
        · cases e with
          | true => exact Or.inr ⟨p, by simp, n, hb⟩
          | false => exact Or.inl (by simpa using h)
        · exact Or.inr ⟨q, by simp [hq], m, h⟩
      · rintro (h | ⟨q, hq, m, h⟩)
        · exact Or.inl (by simp [h])
        · rcases List.mem_cons.mp hq with rfl | hq
          · obtain ⟨_, rfl⟩ := number_unique (hg q (by simp)) h hb
            exact Or.inl rfl
          · exact Or.inr ⟨q, hq, m, h⟩

theorem addParts_eq (ns : List Nat) (hl : ns ≠ []) (h4 : ns.length ≤ 4) (hf : V4Fits ns) :
    addParts ns.dropLast 0 (ns.getLastD 0) = v4Value ns := by
  obtain ⟨h1, h2⟩ := hf
  match ns, hl, h4 with
  | [a], _, _ => simp [addParts, v4Value]
  | [a, b], _, _ =>
    simp [addParts, v4Value] at *
    omega
  | [a, b, c], _, _ =>
    simp [addParts, v4Value] at *
    omega
  | [a, b, c, d], _, _ =>
    simp [addParts, v4Value] at *
    omega
  | a :: b :: c :: d :: e :: t, _, h => simp at h

theorem parse_bad (s : List Nat) (hs : ∀ c ∈ s, IsScalar c) (hg : ∀ p ∈ v4Parts s, Good p) (ec : Ec)
    (hb : 4 < (v4Parts s).length ∨ ∃ p ∈ v4Parts s, ¬ ∃ n b, V4Number p n b) :
    parseIpv4 s ec = some (.opaque s, ec) := by
  unfold parseIpv4
  rw [split_eq s hs]
  dsimp only
  have e : (if (fields (· = 0x2E) s).getLast? = some [] ∧ 1 < (fields (· = 0x2E) s).length then
    (fields (· = 0x2E) s).dropLast else fields (· = 0x2E) s) = v4Parts s := rfl
  rw [e]
  by_cases h4 : 4 < (v4Parts s).length
  · rw [if_pos h4]
  rw [if_neg h4, parts_bad _ hg (hb.resolve_left h4)]

theorem forall₂_ne_nil {α β : Type} {r : α → β → Prop} {l : List α} {m : List β} (h : List.Forall₂ r l m) (hl : l ≠ []) : m ≠ [] := by
  cases h with
  | nil => exact absurd rfl hl
  | cons _ _ => simp

theorem v4Parts_ne_nil (s : List Nat) : v4Parts s ≠ [] := by
  unfold v4Parts
  dsimp only
  split
  · rename_i h
    intro hh
    have := congrArg List.length hh
    simp at this
    omega
  · exact Verif.Proof.Infra.fields_ne_nil _ _

theorem parse_good (s : List Nat) (hs : ∀ c ∈ s, IsScalar c) (hg : ∀ p ∈ v4Parts s, Good p) (ec : Ec)
    (h4 : (v4Parts s).length ≤ 4) (ns : List Nat) (hn : List.Forall₂ (fun p n => ∃ b, V4Number p n b) (v4Parts s) ns) :
    (¬ V4Fits ns → parseIpv4 s ec = some (.null, some .validationError)) ∧
    (V4Fits ns → ((fields (· = 0x2E) s).getLast? = some [] ∨ (∃ p ∈ v4Parts s, ∃ n, V4Number p n true) ∨ ∃ n ∈ ns, 255 < n) →
      parseIpv4 s ec = some (.ipv4 (v4Value ns), some .validationError)) ∧
    (V4Fits ns → ¬ ((fields (· = 0x2E) s).getLast? = some [] ∨ (∃ p ∈ v4Parts s, ∃ n, V4Number p n true) ∨ ∃ n ∈ ns, 255 < n) →
      parseIpv4 s ec = some (.ipv4 (v4Value ns), ec)) := by
  obtain ⟨e, h1, h2⟩ := parts_good _ hg ns hn (decide ((fields (· = 0x2E) s).getLast? = some [])) []
  have hne : ns ≠ [] := forall₂_ne_nil hn (v4Parts_ne_nil s)
  have hlast : ns.getLast? = some (ns.getLastD 0) := by
    rw [List.getLastD_eq_getLast?]
    cases h : ns.getLast? with
    | none => exact absurd (List.getLast?_eq_none_iff.mp h) hne
    | some x => rfl
  have hlen : ns.length ≤ 4 := by rw [← hn.length_eq]; exact h4
  have e' : (if (fields (· = 0x2E) s).getLast? = some [] ∧ 1 < (fields (· = 0x2E) s).length then
    (fields (· = 0x2E) s).dropLast else fields (· = 0x2E) s) = v4Parts s := rfl
  have hany : ∀ l : List Nat, (l.any (fun n => decide (255 < n)) = true) ↔ ∃ n ∈ l, 255 < n := by
    intro l; rw [List.any_eq_true]; simp
  have hp : parseIpv4 s ec = if ns.dropLast.any (fun n => decide (255 < n)) then
      some (.null, if ns.any (fun n => decide (255 < n)) then some .validationError else if e then some .validationError else ec) else
      if 256 ^ (5 - ns.length) ≤ ns.getLastD 0 then some (.null, some .validationError) else
      some (.ipv4 (addParts ns.dropLast 0 (ns.getLastD 0)), 
        if ns.any (fun n => decide (255 < n)) then some .validationError else if e then some .validationError else ec) := by
    unfold parseIpv4
    rw [split_eq s hs]
    dsimp only
    rw [e', if_neg (by omega), h1]
    dsimp only
    rw [List.nil_append, hlast]
  rw [hp]
  refine ⟨fun hf => ?_, fun hf hv => ?_, fun hf hv => ?_⟩
  · by_cases hd : ns.dropLast.any (fun n => decide (255 < n)) = true
    · rw [if_pos hd]
      obtain ⟨n, hn1, hn2⟩ := (hany _).mp hd
      rw [if_pos ((hany ns).mpr ⟨n, (List.dropLast_sublist ns).subset hn1, hn2⟩)]
    · rw [if_neg hd]
      have : 256 ^ (5 - ns.length) ≤ ns.getLastD 0 := by
        by_contra hh
        refine hf ⟨fun n hn => ?_, by omega⟩
        by_contra hh2
        exact hd ((hany _).mpr ⟨n, hn, by omega⟩)
      rw [if_pos this]
  all_goals
    have hd : ¬ ns.dropLast.any (fun n => decide (255 < n)) = true := by
      rw [hany]; rintro ⟨n, hn1, hn2⟩; have := hf.1 n hn1; omega
    rw [if_neg hd, if_neg (by have := hf.2; omega), addParts_eq ns hne hlen hf]
  · by_cases ha : ns.any (fun n => decide (255 < n)) = true
    · rw [if_pos ha]
    · rw [if_neg ha]
      have : e = true := h2.mpr (by
        rcases hv with h | h | h
        · exact Or.inl (by simpa using h)
        · exact Or.inr h
        · exact absurd ((hany _).mpr h) ha)
      rw [if_pos this]
  · have ha : ¬ ns.any (fun n => decide (255 < n)) = true := fun h => hv (Or.inr (Or.inr ((hany _).mp h)))
    have h3 : ¬ e = true := fun h => hv ((h2.mp h).elim (fun h => Or.inl (by simpa using h)) fun h => Or.inr (Or.inl h))
    rw [if_neg ha, if_neg h3]

/-! ### Dotted decimal -/

theorem decimal_ne_nil (n : Nat) : decimal n ≠ [] := by
  rw [← toChars_decimal, toChars]
  split <;> simp

theorem decimal_digit (n : Nat) : ∀ c ∈ decimal n, 0x30 ≤ c ∧ c ≤ 0x39 := by
  rw [← toChars_decimal]; exact toChars_digit n

theorem decimal_number (n : Nat) (h : n < 256) : V4Number (decimal n) n false := by
  have h1 : Numeral 10 (decimal n) n := by
    rw [numeral_iff]
    refine ⟨decimal_ne_nil n, fun c hc => ?_, ?_⟩
    · have := decimal_digit n c hc
      have hall : ∀ c < 0x3A, 0x30 ≤ c → isDigitOf 10 c = true := by decide
      exact hall c (by omega) this.1
    · rw [← toChars_decimal, fromChars_toChars 10 n (by omega) (by omega)]
  have h2 : ∀ n < 256, decimal n = [0x30] ∨ (decimal n).head? ≠ some 0x30 := by decide +kernel
  exact .dec h1 (h2 n h)

theorem dotted_eq (n : Nat) (h : n < 2 ^ 32) : serializeIpv4 n = dotted n := by
  have e1 : n / 256 / 256 / 256 % 256 = n / 2 ^ 24 := by omega
  have e2 : n / 256 / 256 % 256 = n / 2 ^ 16 % 256 := by omega
  simp only [serializeIpv4, serializeIpv4Loop, toChars_decimal, dotted, join]
  rw [e1, e2]
  simp

theorem dotted_fields (n : Nat) : fields (· = 0x2E) (dotted n) =
    [decimal (n / 2 ^ 24), decimal (n / 2 ^ 16 % 256), decimal (n / 2 ^ 8 % 256), decimal (n % 256)] := by
  refine fields_join _ _ (by simp) fun p hp hd => ?_
  have : ∃ k, p = decimal k := by
    simp only [List.mem_cons, List.not_mem_nil, or_false] at hp
    rcases hp with h | h | h | h <;> exact ⟨_, h⟩
  obtain ⟨k, rfl⟩ := this
  have := decimal_digit k _ hd
  omega

theorem dotted_parts (n : Nat) : v4Parts (dotted n) =
    [decimal (n / 2 ^ 24), decimal (n / 2 ^ 16 % 256), decimal (n / 2 ^ 8 % 256), decimal (n % 256)] := by
  unfold v4Parts
  rw [dotted_fields]
  dsimp only
  rw [if_neg]
  intro h
  have := h.1
  simp at this
  exact decimal_ne_nil _ this

theorem good_of_decimal (n : Nat) (h : n < 256) : Good (decimal n) := by
  have hd := decimal_number n h
  refine number_spec _ ?_ ?_
  · intro h8
    have h2 : ∀ n < 256, ¬ ((decimal n).head? = some 0x30 ∧ 0x38 ∈ decimal n) := by decide +kernel
    exact h2 n h ⟨h8.1, h8.2.1⟩
  · intro m b hm
    have hall : ∀ n < 256, (decimal n = [0x30] ∨ (decimal n).head? ≠ some 0x30) := by decide +kernel
    have hx := decimal_digit n
    generalize decimal n = d at *
    cases hm with
    | dec h1 _ =>
      cases hd with
      | dec h2 _ =>
        have e1 := ((numeral_iff _ _ _).mp h1).2.2
        have e2 := ((numeral_iff _ _ _).mp h2).2.2
        omega
    | oct h1 =>
      cases hd with
      | dec h2 hh =>
        rcases hh with hh | hh
        · simp at hh
          exact absurd hh ((numeral_iff _ _ _).mp h1).1
        · simp at hh
    | hex h1 _ =>
      cases hd with
      | dec h2 hh => simp at hh

theorem scalar_of_lt {c : Nat} (h : c < 0x80) : IsScalar c := by unfold IsScalar; omega

theorem parse_dotted (n : Nat) (h : n < 2 ^ 32) (ec : Ec) : parseIpv4 (dotted n) ec = some (.ipv4 n, ec) := by
  have hs : ∀ c ∈ dotted n, IsScalar c := by
    intro c hc
    apply scalar_of_lt
    simp only [dotted, join, List.mem_append, List.mem_cons] at hc
    have := fun k => decimal_digit k c
    rcases hc with hc | hc | hc | hc | hc | hc | hc
    all_goals first | (have := decimal_digit _ _ hc; omega) | omega
  have hp := dotted_parts n
  have := (parse_good (dotted n) hs (by
    rw [hp]; intro p hp
    simp only [List.mem_cons, List.not_mem_nil, or_false] at hp
    rcases hp with rfl | rfl | rfl | rfl <;> exact good_of_decimal _ (by omega)) ec (by rw [hp]; simp)
    [n / 2 ^ 24, n / 2 ^ 16 % 256, n / 2 ^ 8 % 256, n % 256] (by
      rw [hp]
      exact .cons ⟨_, decimal_number _ (by omega)⟩ (.cons ⟨_, decimal_number _ (by omega)⟩ (.cons ⟨_, decimal_number _ (by omega)⟩
        (.cons ⟨_, decimal_number _ (by omega)⟩ .nil)))) ).2.2
  rw [this]
  · congr 3
    simp [v4Value]
    omega
  · constructor
    · simp; omega
    · simp; omega
  · rw [hp, dotted_fields]
    rintro (h1 | ⟨p, hp, m, hm⟩ | ⟨m, hm, h1⟩)
    · simp at h1; exact decimal_ne_nil _ h1
    · have : ∃ k, k < 256 ∧ p = decimal k := by
        simp only [List.mem_cons, List.not_mem_nil, or_false] at hp
        rcases hp with h | h | h | h <;> exact ⟨_, by omega, h⟩
      obtain ⟨k, hk, rfl⟩ := this
      have := number_unique (good_of_decimal k hk) hm (decimal_number k hk)
      simp at this
    · simp only [List.mem_cons, List.not_mem_nil, or_false] at hm
      omega

end Verif.Proof.Host4
