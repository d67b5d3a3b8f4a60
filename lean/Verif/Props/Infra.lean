import Verif.Props.Unicode
import Verif.Proof.Infra
/-
Properties C27 - C32 and C54: string functions of the Infra standard.
Strings of code points are given in any of the three character types (`formOf`).
-/
namespace Verif.Props.Infra
open Verif.Model.Unicode Verif.Model.Infra Verif.Spec Verif.Spec.Infra Verif.Proof.Unicode Verif.Proof.Infra
open Verif.Props.Unicode

/-! ### C27 newline normalization -/

/-- C27, full statement: every scalar value string is normalized. It is false of the code. -/
def C27_statement : Prop := ∀ (src dst : CharT) (s : List Nat), (∀ c ∈ s, IsScalar c) →
  normalizeNewlines src dst (formOf src s) = some (formOf dst (normNL s))

/-- What the code computes for every string: the normalized string without the line feed owed to a trailing CR,
each code point truncated to one output unit. -/
theorem C27_normalize_newlines_exact (src dst : CharT) (s : List Nat) (hs : ∀ c ∈ s, IsScalar c) :
    ∃ out, normalizeNewlines src dst (formOf src s) = some out ∧
      out ++ (if s.getLast? = some 13 then [10] else []) = (normNL s).map (· % unitMod dst) := by
  obtain ⟨st, o, h1, h2, h3⟩ := normalize_fold dst s .start []
  refine ⟨o, ?_, ?_⟩
  · rw [normalizeNewlines, formOf_eq, loopCP_foldlM src _ _ _ hs, h1]; rfl
  · simp only [pre, List.nil_append] at h2 h3
    rw [← h2]
    by_cases h : st = .cr
    · rw [if_pos h, if_pos (h3.mp h)]
    · rw [if_neg h, if_neg (fun h' => h (h3.mpr h'))]

/-- Code points that are a single unit in the output. -/
def SingleUnit (dst : CharT) (c : Nat) : Prop := formOf dst [c] = [c]

theorem normNL_mem (s : List Nat) : ∀ c ∈ normNL s, c = 10 ∨ c ∈ s := by
  fun_induction normNL s <;> intro c hc <;> simp_all <;> grind

/-- C27, partial: correct for strings not ending in CR whose code points are single units of the output type
(ASCII for UTF-8, the BMP for UTF-16, everything for UTF-32). Missing: the two excluded cases, where the code is wrong. -/
theorem C27_normalize_newlines_partial (src dst : CharT) (s : List Nat) (hs : ∀ c ∈ s, IsScalar c)
    (hu : ∀ c ∈ s, SingleUnit dst c) (hl : s.getLast? ≠ some 13) :
    normalizeNewlines src dst (formOf src s) = some (formOf dst (normNL s)) := by
  obtain ⟨out, h1, h2⟩ := C27_normalize_newlines_exact src dst s hs
  rw [if_neg hl, List.append_nil] at h2
  rw [h1, h2]
  congr 1
  rw [formOf_eq]
  have key : ∀ t : List Nat, (∀ c ∈ t, encForm dst c = [c % unitMod dst]) →
      t.map (· % unitMod dst) = t.flatMap (encForm dst) := by
    intro t ht
    induction t with
    | nil => rfl
    | cons c t ih =>
      rw [List.map_cons, List.flatMap_cons, ht c (by simp), ih (fun x hx => ht x (by simp [hx]))]; rfl
  apply key
  intro c hc
  rcases normNL_mem s c hc with rfl | h
  · cases dst <;> decide
  · have h1 := hu c h
    have h2 := hs c h
    unfold IsScalar at h2
    cases dst
    · simp only [SingleUnit, formOf, List.flatMap_cons, List.flatMap_nil, List.append_nil, utf8] at h1
      simp only [encForm, unitMod, utf8]
      split at h1
      · rename_i h3; simp [h3]; omega
      · split at h1
        · simp at h1
        · split at h1 <;> simp at h1
    · simp only [SingleUnit, formOf, List.flatMap_cons, List.flatMap_nil, List.append_nil, utf16] at h1
      simp only [encForm, unitMod, utf16]
      split at h1
      · rename_i h3; simp [h3]; omega
      · simp at h1
    · simp only [encForm, unitMod, utf32]; simp; omega

example : (∀ c ∈ [0x61, 13, 10, 0x62, 13, 0x63], IsScalar c) ∧
    (∀ c ∈ [0x61, 13, 10, 0x62, 13, 0x63], SingleUnit .c8 c) ∧
    [0x61, 13, 10, 0x62, 13, 0x63].getLast? ≠ some 13 ∧
    normNL [0x61, 13, 10, 0x62, 13, 0x63] = [0x61, 10, 0x62, 10, 0x63] := by
  refine ⟨by decide, ?_, by decide, by decide⟩
  unfold SingleUnit; decide

/-- The full statement fails: "a CR" is normalized to "a" instead of "a LF". -/
theorem C27_trailing_cr_lost : normalizeNewlines .c32 .c32 [0x61, 13] = some [0x61] := by
  have h := C27_normalize_newlines_exact .c32 .c32 [0x61, 13] (by decide)
  obtain ⟨out, h1, h2⟩ := h
  rw [show formOf .c32 [0x61, 13] = [0x61, 13] from rfl] at h1
  rw [h1]
  have e : out ++ [10] = [0x61] ++ [10] := by simpa [normNL, unitMod] using h2
  rw [List.append_cancel_right e]

/-- Also, with UTF-8 output U+00E9 comes out as the single byte E9. -/
theorem C27_utf8_truncated : normalizeNewlines .c32 .c8 [0xE9] = some [0xE9] := by
  obtain ⟨out, h1, h2⟩ := C27_normalize_newlines_exact .c32 .c8 [0xE9] (by decide)
  rw [show formOf .c32 [0xE9] = [0xE9] from rfl] at h1
  rw [h1]; congr 1; simpa [normNL, unitMod] using h2

theorem C27_statement_false : ¬ C27_statement := by
  intro h
  have h1 := h .c32 .c32 [0x61, 13] (by decide)
  rw [show formOf .c32 [0x61, 13] = [0x61, 13] from rfl, C27_trailing_cr_lost] at h1
  exact absurd h1 (by decide)

/-- C27. `strip_newlines` removes exactly the CR and LF code points, for every string. -/
theorem C27_strip_newlines (src dst : CharT) (s : List Nat) (hs : ∀ c ∈ s, IsScalar c) :
    stripNewlines src dst (formOf src s) = some (formOf dst (s.filter fun c => c ≠ 10 ∧ c ≠ 13)) := by
  rw [stripNewlines, formOf_eq, loopCP_foldlM src _ _ _ hs, formOf_eq]
  have key : ∀ (t out : List Nat), (∀ c ∈ t, IsScalar c) →
      t.foldlM (fun out cp => if cp ≠ 0xA ∧ cp ≠ 0xD then emit dst out cp else some out) out
        = some (out ++ (t.filter fun c => c ≠ 10 ∧ c ≠ 13).flatMap (encForm dst)) := by
    intro t
    induction t with
    | nil => simp
    | cons c t ih =>
      intro out ht
      rw [List.foldlM_cons]
      have ih := fun o => ih o (fun x hx => ht x (by simp [hx]))
      by_cases h : c ≠ 10 ∧ c ≠ 13
      · rw [if_pos h, emit_scalar dst out (ht c (by simp))]
        rw [List.filter_cons_of_pos (by simpa using h)]
        simp only [Option.bind_eq_bind, Option.bind_some, ih]
        simp
      · rw [if_neg h, List.filter_cons_of_neg (by simpa using h)]
        simp only [Option.bind_eq_bind, Option.bind_some, ih]
  rw [key s [] hs]; simp

example : stripNewlines .c32 .c32 [97, 13, 10, 98] = some [97, 98] := by
  have := C27_strip_newlines .c32 .c32 [97, 13, 10, 98] (by decide)
  simpa [formOf] using this

/-! ### C28 strip leading and trailing whitespace -/

/-- C28, full statement. It is false of the code. -/
def C28_statement : Prop := ∀ (src dst : CharT) (s : List Nat), (∀ c ∈ s, IsScalar c) →
  ∃ t, IsTrim s t ∧ stripLeadingTrailing src dst (formOf src s) = some (formOf dst t)

/-- C28, partial: correct for the empty string and every string with some non-whitespace code point. Missing:
non-empty all-whitespace strings, on which the code reads past the end of its buffer. -/
theorem C28_strip_partial (src dst : CharT) (s : List Nat) (hs : ∀ c ∈ s, IsScalar c)
    (h : s = [] ∨ ∃ c ∈ s, ¬ IsWs c) :
    ∃ t, IsTrim s t ∧ stripLeadingTrailing src dst (formOf src s) = some (formOf dst t) := by
  obtain ⟨t, h1, h2⟩ := stripLeadingTrailing_eq src dst s hs h
  exact ⟨t, h1, by rw [formOf_eq, formOf_eq, h2]⟩

example : (∃ c ∈ [32, 9, 0x61, 32, 0x62, 10], ¬ IsWs c) ∧ IsTrim [32, 9, 0x61, 32, 0x62, 10] [0x61, 32, 0x62] := by
  refine ⟨by decide, ⟨[32, 9], [10], by decide, by decide, by decide, ?_, ?_, by simp⟩⟩
  · intro c hc; simp at hc; subst hc; decide
  · intro c hc; simp at hc; subst hc; decide

/-- The trimmed form is unique, so the specification determines the result. -/
theorem C28_trim_unique (s t u : List Nat) (ht : IsTrim s t) (hu : IsTrim s u) : t = u := by
  -- the leading run is determined
  have lead : ∀ l l' x x' : List Nat, l ++ x = l' ++ x' → (∀ c ∈ l, IsWs c) → (∀ c ∈ l', IsWs c) →
      (∀ c, x.head? = some c → ¬ IsWs c) → (∀ c, x'.head? = some c → ¬ IsWs c) → x = x' := by
    intro l
    induction l with
    | nil =>
      intro l' x x' e _ hl' hx _
      cases l' with
      | nil => simpa using e
      | cons c l' =>
        simp only [List.nil_append] at e
        exact absurd (hl' c (by simp)) (hx c (by rw [e]; rfl))
    | cons a l ih =>
      intro l' x x' e hl hl' hx hx'
      cases l' with
      | nil =>
        simp only [List.nil_append] at e
        exact absurd (hl a (by simp)) (hx' a (by rw [← e]; rfl))
      | cons b l' =>
        simp only [List.cons_append, List.cons.injEq] at e
        exact ih l' x x' e.2 (fun c hc => hl c (by simp [hc])) (fun c hc => hl' c (by simp [hc])) hx hx'
  obtain ⟨l, r, e1, hl, hr, hh, hla, hn⟩ := ht
  obtain ⟨l', r', e2, hl', hr', hh', hla', hn'⟩ := hu
  have hx : ∀ c, (t ++ r).head? = some c → ¬ IsWs c := by
    intro c hc
    cases t with
    | nil => simp [hn rfl] at hc
    | cons d t => exact hh c (by simpa using hc)
  have hx' : ∀ c, (u ++ r').head? = some c → ¬ IsWs c := by
    intro c hc
    cases u with
    | nil => simp [hn' rfl] at hc
    | cons d u => exact hh' c (by simpa using hc)
  have e3 : t ++ r = u ++ r' := lead l l' _ _ (by rw [← List.append_assoc, ← e1, e2, List.append_assoc]) hl hl' hx hx'
  have e4 : r.reverse ++ t.reverse = r'.reverse ++ u.reverse := by
    rw [← List.reverse_append, e3, List.reverse_append]
  have e5 := lead r.reverse r'.reverse t.reverse u.reverse e4 (by simpa using hr) (by simpa using hr')
    (fun c hc => hla c (by simpa using hc)) (fun c hc => hla' c (by simpa using hc))
  simpa using e5

/-- A string consisting of one space makes the code run past the end (undefined behaviour). -/
theorem C28_all_whitespace_ub (src dst : CharT) (s : List Nat) (hs : ∀ c ∈ s, IsWs c) (hne : s ≠ []) :
    stripLeadingTrailing src dst (formOf src s) = none := by
  have hsc : ∀ c ∈ s, IsScalar c := by
    intro c hc; have := hs c hc; unfold IsWs at this; unfold IsScalar; simp at this; omega
  have hall : ∀ t : List Nat, (∀ c ∈ t, IsWs c) → t.takeWhile isAsciiWhiteSpace = t := by
    intro t ht
    induction t with
    | nil => rfl
    | cons c t ih =>
      rw [List.takeWhile_cons, (isWs_iff c).mpr (ht c (by simp)), ih (fun x hx => ht x (by simp [hx]))]; rfl
  rw [stripLeadingTrailing, formOf_eq, loopCP_foldlM src _ _ _ hsc, push_fold]
  simp only [List.nil_append, Option.bind_some, hall s hs, hall s.reverse (by simpa using hs), copyRange]
  rw [if_neg]
  have := List.length_pos_iff.mpr hne
  simp; omega

theorem C28_statement_false : ¬ C28_statement := by
  intro h
  obtain ⟨t, _, h2⟩ := h .c32 .c32 [32] (by decide)
  rw [C28_all_whitespace_ub .c32 .c32 [32] (by decide) (by decide)] at h2
  cases h2

/-! ### C29 strip and collapse -/

/-- C29. The result is the whitespace separated words joined by single spaces, for every string. -/
theorem C29_strip_and_collapse (src dst : CharT) (s : List Nat) (hs : ∀ c ∈ s, IsScalar c) :
    stripAndCollapse src dst (formOf src s) = some (formOf dst (join 32 (words s))) := by
  obtain ⟨st, h⟩ := collapse_fold dst s hs .start []
  rw [stripAndCollapse, formOf_eq, loopCP_foldlM src _ _ _ hs, h, formOf_eq]
  simp [collapseOut]

example : join 32 (words [32, 0x61, 9, 10, 0x62, 32]) = [0x61, 32, 0x62] := by decide

/-! ### C30 strict splitting -/

/-- Joining the pieces gives the string back; no piece contains the delimiter (sanity of the specification). -/
theorem C30_fields_spec (d : Nat) (s : List Nat) :
    join d (fields (· = d) s) = s ∧ ∀ f ∈ fields (· = d) s, d ∉ f := by
  induction s with
  | nil => simp [fields, join]
  | cons c s ih =>
    have hne := fields_ne_nil (· = d) s
    by_cases h : c = d
    · subst h
      simp only [fields, if_true]
      refine ⟨?_, ?_⟩
      · cases hf : fields (· = c) s with
        | nil => contradiction
        | cons f fs => rw [join, ← hf, ih.1]; simp; simp
      · intro f hf
        rcases List.mem_cons.mp hf with rfl | hf
        · simp
        · exact ih.2 f hf
    · simp only [fields, h, if_false]
      split
      · contradiction
      · rename_i f fs hf
        rw [hf] at ih
        refine ⟨?_, ?_⟩
        · cases fs with
          | nil => simp only [join] at ih ⊢; rw [ih.1]
          | cons g fs => simp only [join] at ih ⊢; rw [List.cons_append, ih.1]
        · intro g hg
          rcases List.mem_cons.mp hg with rfl | hg
          · have := ih.2 f (by simp)
            simp only [List.mem_cons, not_or]
            exact ⟨fun e => h e.symm, this⟩
          · exact ih.2 g (by simp [hg])

/-- C30, full statement: any delimiter. It is false of the code for delimiters of several units. -/
def C30_statement : Prop := ∀ (ct : CharT) (d : Nat) (s : List Nat), IsScalar d → (∀ c ∈ s, IsScalar c) →
  strictlySplit ct d (formOf ct s) = some ((fields (· = d) s).map (formOf ct))

/-- C30, partial: correct for every string and every delimiter that is one unit of the character type (all ASCII
delimiters). Missing: multi-unit delimiters, where the code advances into the middle of the delimiter. -/
theorem C30_strictly_split_partial (ct : CharT) (d : Nat) (s : List Nat) (hd : IsScalar d)
    (hu : formOf ct [d] = [d]) (hs : ∀ c ∈ s, IsScalar c) :
    strictlySplit ct d (formOf ct s) = some ((fields (· = d) s).map (formOf ct)) := by
  have hu' : encForm ct d = [d] := by rw [formOf_eq] at hu; simpa using hu
  rw [formOf_eq, strictlySplit_eq ct d hd hu' s hs]
  congr 1
  apply List.map_congr_left
  intro f _; rw [formOf_eq]

example : IsScalar 44 ∧ formOf .c8 [44] = [44] ∧
    fields (· = 44) [0x61, 44, 44, 0x62] = [[0x61], [], [0x62]] := by decide

/-- Splitting the UTF-8 string "é" at "é" runs into an assertion / past the end. -/
theorem C30_multi_unit_delimiter_ub : strictlySplit .c8 0xE9 (formOf .c8 [0xE9]) = none := by
  have hc := collect_eq .c8 .c8 (fun cp => cp != 0xE9) [0xE9] [] (by decide)
  have e : formOf .c8 [0xE9] = [0xE9].flatMap (encForm .c8) := rfl
  rw [strictlySplit, e, hc]
  have : ([0xE9].dropWhile (fun cp => cp != 0xE9)).flatMap (encForm .c8) = [0xC3, 0xA9] := by decide
  rw [this]
  have h2 : collect .c8 .c8 (fun cp => cp != 0xE9) [] [0xA9] = none := by
    rw [collect]; decide
  have h3 : toCodePoint .c8 [0xC3, 0xA9] = some (0xE9, []) := by decide
  simp only [show ([0xE9].flatMap (encForm .c8)).length = 2 from by decide, strictlySplitLoop, h2, h3]
  rfl

theorem C30_statement_false : ¬ C30_statement := by
  intro h
  have := h .c8 0xE9 [0xE9] (by decide) (by decide)
  rw [C30_multi_unit_delimiter_ub] at this
  cases this

/-! ### C31 splitting on whitespace and commas -/

/-- C31. `split_on_ascii_whitespace` yields the words of every string. -/
theorem C31_split_on_whitespace (ct : CharT) (s : List Nat) (hs : ∀ c ∈ s, IsScalar c) :
    splitOnWhitespace ct (formOf ct s) = some ((words s).map (formOf ct)) := by
  rw [formOf_eq, splitOnWhitespace, skip_eq ct s hs]
  simp only
  rw [splitWsLoop_eq]
  · rw [words_dropWhile]
    simp only [List.nil_append]
    congr 1
    apply List.map_congr_left
    intro f _; rw [formOf_eq]
  · have h1 := dropWhile_length_le isAsciiWhiteSpace s
    have h2 := enc_length_le ct s
    omega
  · exact fun x hx => hs x (dropWhile_subset _ _ x hx)
  · intro x hx
    rw [← isWs_iff, Bool.not_eq_true]
    exact head_dropWhile hx

/-- C31, full statement for commas. It is false of the code. -/
def C31_commas_statement : Prop := ∀ (ct : CharT) (s : List Nat), (∀ c ∈ s, IsScalar c) →
  ∃ ts, TrimAll (commaPieces s) ts ∧ splitOnCommas ct (formOf ct s) = some (ts.map (formOf ct))

/-- C31, partial: correct when no piece is non-empty and all whitespace. Missing: those strings (see C28). -/
theorem C31_split_on_commas_partial (ct : CharT) (s : List Nat) (hs : ∀ c ∈ s, IsScalar c)
    (hp : ∀ f ∈ commaPieces s, f = [] ∨ ∃ c ∈ f, ¬ IsWs c) :
    ∃ ts, TrimAll (commaPieces s) ts ∧ splitOnCommas ct (formOf ct s) = some (ts.map (formOf ct)) := by
  obtain ⟨ts, h1, h2⟩ := splitCommasLoop_eq ct _ s [] (enc_length_le ct s) hs hp
  refine ⟨ts, h1, ?_⟩
  rw [formOf_eq, splitOnCommas, h2]
  simp only [List.nil_append]
  congr 1
  apply List.map_congr_left
  intro f _; rw [formOf_eq]

example : commaPieces [0x61, 32, 44, 44, 32, 0x62] = [[0x61, 32], [], [32, 0x62]] ∧
    (∀ f ∈ commaPieces [0x61, 32, 44, 44, 32, 0x62], f = [] ∨ ∃ c ∈ f, ¬ IsWs c) := by decide

/-- "a, ,b" (a piece of one space) is undefined behaviour. -/
theorem C31_whitespace_piece_ub : splitOnCommas .c32 [32, 44, 0x62] = none := by
  have hc := collect_eq .c32 .c32 (fun cp => cp != 0x2C) [32, 44, 0x62] [] (by decide)
  have h1 : [32, 44, 0x62].flatMap (encForm .c32) = [32, 44, 0x62] := by decide
  have h2 : ([32, 44, 0x62].takeWhile (fun cp => cp != 0x2C)).flatMap (encForm .c32) = [32] := by decide
  rw [h1, h2] at hc
  have hst : stripLeadingTrailing .c32 .c32 [32] = none :=
    C28_all_whitespace_ub .c32 .c32 [32] (by decide) (by decide)
  show splitCommasLoop .c32 3 [32, 44, 0x62] [] = none
  rw [splitCommasLoop, hc]
  simp only [List.nil_append, hst]

theorem C31_commas_statement_false : ¬ C31_commas_statement := by
  intro h
  obtain ⟨ts, _, h2⟩ := h .c32 [32, 44, 0x62] (by decide)
  rw [show formOf .c32 [32, 44, 0x62] = [32, 44, 0x62] from rfl, C31_whitespace_piece_ub] at h2
  cases h2

/-! ### C32 case functions -/

theorem case_fold (dst : CharT) (f : Nat → Nat) (hf : ∀ c, IsScalar c → IsScalar (f c)) (s : List Nat)
    (hs : ∀ c ∈ s, IsScalar c) (out : List Nat) :
    s.foldlM (fun out cp => emit dst out (f cp)) out = some (out ++ (s.map f).flatMap (encForm dst)) := by
  induction s generalizing out with
  | nil => simp
  | cons c s ih =>
    rw [List.foldlM_cons, emit_scalar dst out (hf c (hs c (by simp)))]
    simp only [Option.bind_eq_bind, Option.bind_some]
    rw [ih (fun x hx => hs x (by simp [hx]))]; simp

theorem lower_model (c : Nat) : (if isAsciiUpperAlpha c then c + 0x20 else c) = lower c := by
  simp [isAsciiUpperAlpha, lower]
theorem upper_model (c : Nat) : (if isAsciiLowerAlpha c then c - 0x20 else c) = upper c := by
  simp [isAsciiLowerAlpha, upper]

/-- C32. `to_ascii_lowercase` / `to_ascii_uppercase` map every code point of every string by the ASCII case map. -/
theorem C32_lowercase (src dst : CharT) (s : List Nat) (hs : ∀ c ∈ s, IsScalar c) :
    toAsciiLowercase src dst (formOf src s) = some (formOf dst (s.map lower)) := by
  rw [toAsciiLowercase, formOf_eq, loopCP_foldlM src _ _ _ hs]
  simp only [lower_model]
  rw [case_fold dst lower _ s hs [], formOf_eq]; · simp
  intro c hc; unfold IsScalar lower at *; split <;> omega

theorem C32_uppercase (src dst : CharT) (s : List Nat) (hs : ∀ c ∈ s, IsScalar c) :
    toAsciiUppercase src dst (formOf src s) = some (formOf dst (s.map upper)) := by
  rw [toAsciiUppercase, formOf_eq, loopCP_foldlM src _ _ _ hs]
  simp only [upper_model]
  rw [case_fold dst upper _ s hs [], formOf_eq]; · simp
  intro c hc; unfold IsScalar upper at *; split <;> omega

/-- C32. The case maps are idempotent and touch only ASCII letters. -/
theorem C32_case_maps (c : Nat) : lower (lower c) = lower c ∧ upper (upper c) = upper c ∧
    (lower c ≠ c → 65 ≤ c ∧ c ≤ 90) ∧ (upper c ≠ c → 97 ≤ c ∧ c ≤ 122) ∧ lower (upper c) = lower c := by
  unfold lower upper; grind

/-- C32. Case-insensitive match of any two strings, in any two character types, decides equality of the
lowercase forms. -/
theorem C32_case_insensitive_match (ct1 ct2 : CharT) (s t : List Nat) (hs : ∀ c ∈ s, IsScalar c)
    (ht : ∀ c ∈ t, IsScalar c) :
    isAsciiCaseInsensitiveMatch ct1 ct2 (formOf ct1 s) (formOf ct2 t) = some (decide (s.map lower = t.map lower)) := by
  rw [formOf_eq, formOf_eq]
  induction s generalizing t with
  | nil =>
    rw [isAsciiCaseInsensitiveMatch]
    cases t with
    | nil => simp
    | cons d t => simp [encForm_ne_nil]
  | cons c s ih =>
    have h1 : (encForm ct1 c ++ s.flatMap (encForm ct1)).isEmpty = false := by simp [encForm_ne_nil]
    rw [isAsciiCaseInsensitiveMatch]
    cases t with
    | nil => simp [encForm_ne_nil]
    | cons d t =>
      have h2 : (encForm ct2 d ++ t.flatMap (encForm ct2)).isEmpty = false := by simp [encForm_ne_nil]
      simp only [List.flatMap_cons, h1, h2, Bool.or_self, Bool.false_eq_true, if_false]
      split
      · rename_i h; rw [List.flatMap_cons, toCodePoint_scalar ct1 (hs c (by simp))] at h; cases h
      · rename_i h; rw [List.flatMap_cons, toCodePoint_scalar ct1 (hs c (by simp))] at h; cases h
        rw [toCodePoint_scalar ct2 (ht d (by simp))]
        simp only [lower_model, List.map_cons]
        by_cases e : lower c = lower d
        · rw [if_neg (by simp [e]), ih t (fun x hx => hs x (by simp [hx])) (fun x hx => ht x (by simp [hx]))]
          simp [e]
        · rw [if_pos e]; simp [e]

/-- C32. The byte versions: lowercase forms decide the byte-wise match. -/
theorem C32_byte_match (s t : List Nat) :
    isByteCaseInsensitiveMatch s t = decide (s.map lower = t.map lower) := by
  have : toByteLowercase = fun s => s.map lower := by
    funext s; simp [toByteLowercase, lower]
  rw [isByteCaseInsensitiveMatch, this]
  by_cases h : s.map lower = t.map lower <;> simp [h]

example : (∀ c ∈ [0x48, 0xE9, 0x49], IsScalar c) ∧ [0x48, 0xE9, 0x49].map lower = [0x68, 0xE9, 0x69] := by decide

/-! ### C54 code point classes -/

/-- C54. `is_noncharacter` is exact on every 32-bit value. -/
theorem C54_noncharacter (c : Nat) : isNoncharacter c = true ↔ IsNonchar c := by
  unfold isNoncharacter IsNonchar
  simp only [Bool.and_eq_true, decide_eq_true_eq, List.contains_iff_mem]
  split
  · rename_i h; simp; omega
  · rename_i h
    simp
    omega

/-- C54, full statement for scalar values. It is false: no upper bound is checked. -/
def C54_scalar_statement : Prop := ∀ c < 2 ^ 32, (isScalarValue c = true ↔ IsScalar c)

theorem C54_scalar_partial (c : Nat) (h : c ≤ 0x10FFFF) : isScalarValue c = true ↔ IsScalar c := by
  unfold isScalarValue isSurrogate IsScalar
  simp; omega

theorem C54_scalar_statement_false : ¬ C54_scalar_statement := by
  intro h; exact absurd (h 0x110000 (by decide)) (by decide)

example : isScalarValue 0x41 = true ∧ isScalarValue 0xD800 = false := by decide
example : IsNonchar 0x1FFFE ∧ ¬ IsNonchar 0x1FFFD := by unfold IsNonchar; omega


end Verif.Props.Infra
