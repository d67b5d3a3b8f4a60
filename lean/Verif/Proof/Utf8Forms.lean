import Verif.Spec.Decode
/- Initial parts of well-formed UTF-8 by byte ranges (Unicode standard, table 3-7). -/
namespace Verif.Proof.Utf8Forms
open Verif.Spec

/-- Continuation byte. -/
def Cont (b : Nat) : Prop := 0x80 ≤ b ∧ b ≤ 0xBF
/-- `b` can follow the lead byte `a`. -/
def Sec (a b : Nat) : Prop :=
  0xC2 ≤ a ∧ a ≤ 0xF4 ∧ 0x80 ≤ b ∧ b ≤ 0xBF ∧ (a = 0xE0 → 0xA0 ≤ b) ∧ (a = 0xED → b ≤ 0x9F) ∧
    (a = 0xF0 → 0x90 ≤ b) ∧ (a = 0xF4 → b ≤ 0x8F)

def Part : List Nat → Prop
  | [] => True
  | [a] => a < 0x80 ∨ (0xC2 ≤ a ∧ a ≤ 0xF4)
  | [a, b] => Sec a b
  | [a, b, c] => 0xE0 ≤ a ∧ Sec a b ∧ Cont c
  | [a, b, c, d] => 0xF0 ≤ a ∧ Sec a b ∧ Cont c ∧ Cont d
  | _ => False

def Full : List Nat → Prop
  | [a] => a < 0x80
  | [a, b] => a ≤ 0xDF ∧ Sec a b
  | [a, b, c] => 0xE0 ≤ a ∧ a ≤ 0xEF ∧ Sec a b ∧ Cont c
  | [a, b, c, d] => 0xF0 ≤ a ∧ Sec a b ∧ Cont c ∧ Cont d
  | _ => False

theorem full_utf8 {c : Nat} (h : IsScalar c) : Full (utf8 c) := by
  unfold IsScalar at h
  unfold utf8
  split
  · simp only [Full]; omega
  · split
    · simp only [Full, Sec]; omega
    · split
      · simp only [Full, Sec, Cont]; omega
      · simp only [Full, Sec, Cont]; omega

theorem utf8_1 {c : Nat} (h : c < 0x80) : utf8 c = [c] := by
  unfold utf8; rw [if_pos h]
theorem utf8_2 {c : Nat} (h : 0x80 ≤ c) (h2 : c < 0x800) : utf8 c = [0xC0 + c / 64, 0x80 + c % 64] := by
  unfold utf8; rw [if_neg (by omega), if_pos h2]
theorem utf8_3 {c : Nat} (h : 0x800 ≤ c) (h2 : c < 0x10000) :
    utf8 c = [0xE0 + c / 4096, 0x80 + c / 64 % 64, 0x80 + c % 64] := by
  unfold utf8; rw [if_neg (by omega), if_neg (by omega), if_pos h2]
theorem utf8_4 {c : Nat} (h : 0x10000 ≤ c) :
    utf8 c = [0xF0 + c / 262144, 0x80 + c / 4096 % 64, 0x80 + c / 64 % 64, 0x80 + c % 64] := by
  unfold utf8; rw [if_neg (by omega), if_neg (by omega), if_neg (by omega)]

theorem list2 {a b a' b' : Nat} (h1 : a = a') (h2 : b = b') : [a, b] = [a', b'] := by rw [h1, h2]
theorem list3 {a b c a' b' c' : Nat} (h1 : a = a') (h2 : b = b') (h3 : c = c') : [a, b, c] = [a', b', c'] := by
  rw [h1, h2, h3]
theorem list4 {a b c d a' b' c' d' : Nat} (h1 : a = a') (h2 : b = b') (h3 : c = c') (h4 : d = d') :
    [a, b, c, d] = [a', b', c', d'] := by rw [h1, h2, h3, h4]

theorem full_value {q : List Nat} (h : Full q) : ∃ c, IsScalar c ∧ utf8 c = q := by
  match q, h with
  | [a], h =>
    simp only [Full] at h
    exact ⟨a, Or.inl (by omega), utf8_1 h⟩
  | [a, b], h =>
    simp only [Full, Sec] at h
    refine ⟨(a - 0xC0) * 64 + (b - 0x80), by simp only [IsScalar]; omega, ?_⟩
    rw [utf8_2 (by omega) (by omega)]
    exact list2 (by omega) (by omega)
  | [a, b, c], h =>
    simp only [Full, Sec, Cont] at h
    refine ⟨(a - 0xE0) * 4096 + (b - 0x80) * 64 + (c - 0x80), by simp only [IsScalar]; omega, ?_⟩
    rw [utf8_3 (by omega) (by omega)]
    exact list3 (by omega) (by omega) (by omega)
  | [a, b, c, d], h =>
    simp only [Full, Sec, Cont] at h
    refine ⟨(a - 0xF0) * 262144 + (b - 0x80) * 4096 + (c - 0x80) * 64 + (d - 0x80), by simp only [IsScalar]; omega, ?_⟩
    rw [utf8_4 (by omega)]
    exact list4 (by omega) (by omega) (by omega) (by omega)

theorem full_part {q p : List Nat} (h : Full q) (hp : p <+: q) : Part p := by
  obtain ⟨r, rfl⟩ := hp
  match p, r, h with
  | [], _, _ => trivial
  | [a], [], h => exact Or.inl h
  | [a], [b], h => exact Or.inr ⟨h.2.1, h.2.2.1⟩
  | [a], [b, c], h => exact Or.inr ⟨h.2.2.1.1, h.2.2.1.2.1⟩
  | [a], [b, c, d], h => exact Or.inr ⟨h.2.1.1, h.2.1.2.1⟩
  | [a, b], [], h => exact h.2
  | [a, b], [c], h => exact h.2.2.1
  | [a, b], [c, d], h => exact h.2.1
  | [a, b, c], [], h => exact ⟨h.1, h.2.2⟩
  | [a, b, c], [d], h => exact ⟨by have := h.1; omega, h.2.1, h.2.2.1⟩
  | [a, b, c, d], [], h => exact h

theorem part_full {p : List Nat} (h : Part p) : ∃ q, Full q ∧ p <+: q := by
  have c80 : Cont 0x80 := ⟨by omega, by omega⟩
  match p, h with
  | [], _ => exact ⟨[0], by simp [Full], by simp⟩
  | [a], h =>
    rcases h with h | ⟨h1, h2⟩
    · exact ⟨[a], h, List.prefix_rfl⟩
    · obtain ⟨b, hb⟩ : ∃ b, Sec a b := by
        refine ⟨if a = 0xE0 then 0xA0 else if a = 0xF0 then 0x90 else 0x80, ?_⟩
        unfold Sec
        by_cases e : a = 0xE0
        · subst e; simp
        · by_cases e2 : a = 0xF0
          · subst e2; simp
          · rw [if_neg e, if_neg e2]; omega
      by_cases h3 : a ≤ 0xDF
      · exact ⟨[a, b], ⟨h3, hb⟩, by simp⟩
      · by_cases h4 : a ≤ 0xEF
        · exact ⟨[a, b, 0x80], ⟨by omega, h4, hb, c80⟩, by simp⟩
        · exact ⟨[a, b, 0x80, 0x80], ⟨by omega, hb, c80, c80⟩, by simp⟩
  | [a, b], h =>
    by_cases h3 : a ≤ 0xDF
    · exact ⟨[a, b], ⟨h3, h⟩, by simp⟩
    · by_cases h4 : a ≤ 0xEF
      · exact ⟨[a, b, 0x80], ⟨by omega, h4, h, c80⟩, by simp⟩
      · exact ⟨[a, b, 0x80, 0x80], ⟨by omega, h, c80, c80⟩, by simp⟩
  | [a, b, c], h =>
    by_cases h4 : a ≤ 0xEF
    · exact ⟨[a, b, c], ⟨h.1, h4, h.2.1, h.2.2⟩, by simp⟩
    · exact ⟨[a, b, c, 0x80], ⟨by omega, h.2.1, h.2.2, c80⟩, by simp⟩
  | [a, b, c, d], h => exact ⟨[a, b, c, d], h, by simp⟩

theorem starts_iff (p : List Nat) : Utf8Starts p ↔ Part p := by
  constructor
  · rintro ⟨c, hc, hp⟩; exact full_part (full_utf8 hc) hp
  · intro h
    obtain ⟨q, hq, hp⟩ := part_full h
    obtain ⟨c, hc, rfl⟩ := full_value hq
    exact ⟨c, hc, hp⟩

theorem full_iff (q : List Nat) : Full q ↔ ∃ c, IsScalar c ∧ utf8 c = q :=
  ⟨full_value, fun ⟨_, hc, e⟩ => e ▸ full_utf8 hc⟩

theorem utf8_inj {c d : Nat} (h : utf8 c = utf8 d) : c = d := by
  have f : ∀ x, utf8 x = if x < 0x80 then [x]
      else if x < 0x800 then [0xC0 + x / 64, 0x80 + x % 64]
      else if x < 0x10000 then [0xE0 + x / 4096, 0x80 + x / 64 % 64, 0x80 + x % 64]
      else [0xF0 + x / 262144, 0x80 + x / 4096 % 64, 0x80 + x / 64 % 64, 0x80 + x % 64] := fun x => rfl
  rw [f c, f d] at h
  split at h <;> split at h <;> (try split at h) <;> (try split at h) <;> (try split at h) <;> (try split at h) <;>
    simp only [List.cons.injEq, and_true, reduceCtorEq, and_false] at h <;> omega

/-- Full sequences at the front of the same bytes are equal. -/
theorem full_prefix_unique {p q b : List Nat} (hp : Full p) (hq : Full q) (h1 : p <+: b) (h2 : q <+: b) : p = q := by
  obtain ⟨r, rfl⟩ := h1
  obtain ⟨s, h⟩ := h2
  match p, hp with
  | [a], hp => 
    match q, hq with
    | [a'], hq => simp only [List.cons_append, List.nil_append, List.cons.injEq] at h; obtain ⟨h1, h2⟩ := h; first | (subst h1; rfl) | (obtain ⟨h2, h3⟩ := h2; subst h1 h2; rfl) | (obtain ⟨h2, h3, h4⟩ := h2; subst h1 h2 h3; rfl) | (obtain ⟨h2, h3, h4, h5⟩ := h2; subst h1 h2 h3 h4; rfl)
    | [a', b'], hq => simp [Full, Sec] at *; omega
    | [a', b', c'], hq => simp [Full, Sec] at *; omega
    | [a', b', c', d'], hq => simp [Full, Sec] at *; omega
  | [a, b], hp =>
    match q, hq with
    | [a'], hq => simp [Full, Sec] at *; omega
    | [a', b'], hq => simp only [List.cons_append, List.nil_append, List.cons.injEq] at h; obtain ⟨h1, h2⟩ := h; first | (subst h1; rfl) | (obtain ⟨h2, h3⟩ := h2; subst h1 h2; rfl) | (obtain ⟨h2, h3, h4⟩ := h2; subst h1 h2 h3; rfl) | (obtain ⟨h2, h3, h4, h5⟩ := h2; subst h1 h2 h3 h4; rfl)
    | [a', b', c'], hq => simp [Full, Sec] at *; omega
    | [a', b', c', d'], hq => simp [Full, Sec] at *; omega
  | [a, b, c], hp =>
    match q, hq with
    | [a'], hq => simp [Full, Sec] at *; omega
    | [a', b'], hq => simp [Full, Sec] at *; omega
    | [a', b', c'], hq => simp only [List.cons_append, List.nil_append, List.cons.injEq] at h; obtain ⟨h1, h2⟩ := h; first | (subst h1; rfl) | (obtain ⟨h2, h3⟩ := h2; subst h1 h2; rfl) | (obtain ⟨h2, h3, h4⟩ := h2; subst h1 h2 h3; rfl) | (obtain ⟨h2, h3, h4, h5⟩ := h2; subst h1 h2 h3 h4; rfl)
    | [a', b', c', d'], hq => simp [Full, Sec] at *; omega
  | [a, b, c, d], hp =>
    match q, hq with
    | [a'], hq => simp [Full, Sec] at *; omega
    | [a', b'], hq => simp [Full, Sec] at *; omega
    | [a', b', c'], hq => simp [Full, Sec] at *; omega
    | [a', b', c', d'], hq => simp only [List.cons_append, List.nil_append, List.cons.injEq] at h; obtain ⟨h1, h2⟩ := h; first | (subst h1; rfl) | (obtain ⟨h2, h3⟩ := h2; subst h1 h2; rfl) | (obtain ⟨h2, h3, h4⟩ := h2; subst h1 h2 h3; rfl) | (obtain ⟨h2, h3, h4, h5⟩ := h2; subst h1 h2 h3 h4; rfl)

end Verif.Proof.Utf8Forms
