import Verif.Proof.CssInput
/-
Properties C50, C60: CSS input stream.
-/
namespace Verif.Props.CssInput
open Verif.Model.CssInput Verif.Spec.CssInput Verif.Proof.CssInput

/-- C50. For every text, the in-place filter stays inside the container and leaves exactly the filtered text. -/
theorem C50_filter (s : List Nat) : filterCodePoints s = some (filter s) := by
  obtain ⟨buf, w, a, _, c, _⟩ := filterLoop_spec s [] []
  simp only [List.append_nil, List.nil_append, List.length_nil, Nat.add_zero] at a c
  simp [filterCodePoints, a, c]

example : filterCodePoints [13, 10, 13, 12, 0, 0xD800, 0x61, 13] = some [10, 10, 10, 0xFFFD, 0xFFFD, 0x61, 10] := by decide

/-- C50. The filtered text has no CR, FF, NUL or surrogate, and filtering twice changes nothing. -/
theorem C50_clean (s : List Nat) : ∀ c ∈ filter s, c ≠ 13 ∧ c ≠ 12 ∧ c ≠ 0 ∧ ¬ (0xD800 ≤ c ∧ c ≤ 0xDFFF) := by
  fun_induction filter s with
  | case1 => simp
  | case2 s ih => simpa using ih
  | case3 c s h ih =>
    intro x hx
    simp only [List.mem_cons] at hx
    rcases hx with rfl | hx
    · split
      · decide
      · split
        · decide
        · omega
    · exact ih x hx

theorem C50_idempotent (s : List Nat) : filter (filter s) = filter s := by
  have key : ∀ t : List Nat, (∀ c ∈ t, c ≠ 13 ∧ c ≠ 12 ∧ c ≠ 0 ∧ ¬ (0xD800 ≤ c ∧ c ≤ 0xDFFF)) → filter t = t := by
    intro t
    induction t with
    | nil => intro _; rfl
    | cons c t ih =>
      intro h
      obtain ⟨a, b, d, e⟩ := h c (by simp)
      rw [filter_other c t a, if_neg b, if_neg (by omega), ih (fun x hx => h x (by simp [hx]))]
  exact key _ (C50_clean s)

/-- The label `utf-16be`. -/
def utf16beLabel : List Nat := [0x75, 0x74, 0x66, 0x2D, 0x31, 0x36, 0x62, 0x65]

/-- C60, full statement (CSS Syntax 3.2 step 2): an `@charset` rule naming UTF-16 yields UTF-8, since such a rule could not
have been read otherwise. It is false of the code for every label table that knows the label. -/
def C60_statement : Prop := ∀ (E : Type) (utf8 utf16be : E) (lookup : List Nat → Option E),
  lookup utf16beLabel = some utf16be →
  ∀ rest, determineFallback utf8 lookup none (charsetRule ++ utf16beLabel ++ [0x22, 0x3B] ++ rest) = utf8

/-- C60, partial: an explicit fallback wins; otherwise the answer is UTF-8 or what the label table says for some label.
Missing: the replacement of UTF-16 by UTF-8. -/
theorem C60_fallback_partial {E : Type} (utf8 : E) (lookup : List Nat → Option E) (s : List Nat) :
    (∀ f, determineFallback utf8 lookup (some f) s = f) ∧
    (determineFallback utf8 lookup none s = utf8 ∨ ∃ l, lookup l = some (determineFallback utf8 lookup none s)) := by
  refine ⟨fun _ => rfl, ?_⟩
  have loop : ∀ n s st label, charsetLoop utf8 lookup n s st label = utf8 ∨
      ∃ l, lookup l = some (charsetLoop utf8 lookup n s st label) := by
    intro n
    induction n with
    | zero => intro s st label; left; cases st <;> simp [charsetLoop]
    | succ n ih =>
      intro s st label
      cases s with
      | nil => left; simp [charsetLoop]
      | cons c s =>
        cases st with
        | true =>
          simp only [charsetLoop]
          split
          · exact ih _ _ _
          · split
            · exact Or.inl rfl
            · exact ih _ _ _
        | false =>
          simp only [charsetLoop]
          split
          · cases h : lookup label with
            | none => exact Or.inl rfl
            | some e => exact Or.inr ⟨label, h⟩
          · exact ih _ _ _
  simp only [determineFallback]
  split
  · exact Or.inl rfl
  · exact loop _ _ _ _

/-- C60. A well-formed rule `@charset "label";` at the start gives the encoding of the label, whatever follows, for labels of at
most 1013 ASCII characters without quotes. -/
theorem C60_charset_rule {E : Type} (utf8 : E) (lookup : List Nat → Option E) (label rest : List Nat) (e : E)
    (hl : ∀ c ∈ label, c ≤ 0x7F ∧ c ≠ 0x22) (hlen : label.length ≤ 1013) (he : lookup label = some e) :
    determineFallback utf8 lookup none (charsetRule ++ label ++ [0x22, 0x3B] ++ rest) = e := by
  have hpre : ∀ p s : List Nat, charsetPrefix p (p ++ s) = some s := by
    intro p
    induction p with
    | nil => intro s; rfl
    | cons a p ih => intro s; simp [charsetPrefix, ih]
  have loop : ∀ (l acc : List Nat) (n : Nat), (∀ c ∈ l, c ≤ 0x7F ∧ c ≠ 0x22) → lookup (acc ++ l) = some e → l.length + 2 ≤ n →
      charsetLoop utf8 lookup n (l ++ [0x22, 0x3B] ++ rest) true acc = e := by
    intro l
    induction l with
    | nil =>
      intro acc n _ he hn
      obtain ⟨n, rfl⟩ : ∃ m, n = m + 2 := ⟨n - 2, by simp at hn; omega⟩
      simp only [List.append_nil] at he
      simp [charsetLoop, he]
    | cons c l ih =>
      intro acc n hl he hn
      obtain ⟨n, rfl⟩ : ∃ m, n = m + 1 := ⟨n - 1, by simp at hn; omega⟩
      have hc := hl c (by simp)
      simp only [List.cons_append, charsetLoop]
      rw [if_pos (by simp; omega)]
      exact ih (acc ++ [c]) n (fun x hx => hl x (by simp [hx])) (by simpa using he) (by simp at hn; omega)
  simp only [determineFallback]
  rw [List.append_assoc, List.append_assoc, hpre]
  have := loop label [] 1015 hl (by simpa using he) (by omega)
  simpa using this

example : determineFallback 0 (fun l => if l = [0x78] then some 7 else none) none
    (charsetRule ++ [0x78] ++ [0x22, 0x3B] ++ [0x61]) = 7 := by decide

theorem C60_utf16_kept {E : Type} (utf8 utf16be : E) (lookup : List Nat → Option E) (h : lookup utf16beLabel = some utf16be)
    (rest : List Nat) :
    determineFallback utf8 lookup none (charsetRule ++ utf16beLabel ++ [0x22, 0x3B] ++ rest) = utf16be :=
  C60_charset_rule utf8 lookup utf16beLabel rest utf16be (by decide) (by decide) h

theorem C60_statement_false : ¬ C60_statement := by
  intro h
  have h1 := h Bool false true (fun _ => some true) rfl []
  rw [C60_utf16_kept false true _ rfl] at h1
  cases h1


end Verif.Props.CssInput
