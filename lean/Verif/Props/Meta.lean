import Verif.Proof.Meta
/- Property C111: the encoding that a `meta` element declares. -/
namespace Verif.Props.Meta
open Verif.Model.Infra Verif.Model.Legacy Verif.Model.Labels Verif.Model.Meta Verif.Spec Verif.Spec.Infra Verif.Spec.Meta
open Verif.Spec.Labels (codes labels)
open Verif.Proof.Meta Verif.Props.Labels Verif.Props.Infra

/-- C111, as stated: the encoding found in the `content` of a `meta` element is the one the text declares, if any. -/
def C111_statement : Prop :=
  ∀ s : List Nat, (∀ c ∈ s, IsScalar c) → ∃ o, extract s = some o ∧ ∀ e, o = some e ↔ Declares s e

/-- A value declared is not only white space. -/
def NotBlank (s : List Nat) : Prop := ∀ rest v, FirstDecl s rest → Value rest v → v = [] ∨ ∃ c ∈ v, ¬ IsWs c

/-- The value is unique, so `NotBlank` speaks of the one that the code uses. -/
theorem first_unique {s r r' : List Nat} (h : FirstDecl s r) (h' : FirstDecl s r') : r = r' := by
  rw [← decl_iff] at h h'
  rw [h] at h'; exact Option.some.inj h'

/-- C111, partial. Missing: texts whose first `charset=` has a quoted value of white space only; there the code has no defined
result (`C111_blank`). -/
theorem C111_partial (s : List Nat) (hs : ∀ c ∈ s, IsScalar c) (hb : NotBlank s) :
    ∃ o, extract s = some o ∧ ∀ e, o = some e ↔ Declares s e := by
  rw [extract_eq s hs]
  cases hd : decl s with
  | none =>
    refine ⟨none, rfl, fun e => ⟨fun h => (by cases h), ?_⟩⟩
    rintro ⟨rest, v, h1, _⟩
    rw [← decl_iff, hd] at h1; cases h1
  | some r =>
    have hf := (decl_iff s r).1 hd
    have hr : ∀ c ∈ r, IsScalar c := fun c hc => hs c (decl_mem hf c hc)
    by_cases hv : ∃ v, Value r v
    · obtain ⟨v, hv⟩ := hv
      obtain ⟨e1, e2⟩ := value_some hr hv
      have hvs : ∀ c ∈ v, IsScalar c := fun c hc => hr c (e2 c hc)
      have hw := hb r v hf hv
      simp only
      rw [e1, name_lower v hvs hw]
      obtain ⟨t, _, h2⟩ := name_eq v hvs hw
      rw [h2]
      refine ⟨_, rfl, fun e => ?_⟩
      have key := C41_standard v hvs hw e
      rw [h2, Option.some.injEq] at key
      rw [key]
      constructor
      · intro h
        exact ⟨r, v, hf, hv, h⟩
      · rintro ⟨r', v', h1, h3, h4⟩
        obtain rfl := first_unique hf h1
        have hw' := hb r v' hf h3
        obtain ⟨e1', e2'⟩ := value_some hr h3
        have hvs' : ∀ c ∈ v', IsScalar c := fun c hc => hr c (e2' c hc)
        rw [e1, name_lower v hvs hw, name_lower v' hvs' hw'] at e1'
        have key' := (C41_standard v' hvs' hw' e).2 h4
        rw [← e1'] at key'
        exact (C41_standard v hvs hw e).1 key'
    · simp only
      rw [value_none hr hv]
      refine ⟨none, rfl, fun e => ⟨fun h => (by cases h), ?_⟩⟩
      rintro ⟨rest, v, h1, h2, _⟩
      obtain rfl := first_unique hf h1
      exact absurd ⟨v, h2⟩ hv

theorem not_first {s r : List Nat} (h : decl s = none) : ¬ FirstDecl s r := by
  rw [← decl_iff, h]; simp

/-- `text/html; charset; CharSet = "Latin1";` declares windows-1252. -/
example : Declares (codes "text/html; charset; CharSet = \" Latin1\";") .windows_1252 ∧
    NotBlank (codes "text/html; charset; CharSet = \" Latin1\";") := by
  have h1 : FirstDecl (codes "text/html; charset; CharSet = \" Latin1\";") (codes " \" Latin1\";") :=
    (decl_iff _ _).1 (by decide +kernel)
  have h2 : Value (codes " \" Latin1\";") (codes " Latin1") :=
    Value.quoted [32] 34 (codes " Latin1") [59] (by decide) (.inl rfl) (by decide)
  refine ⟨⟨_, _, h1, h2, codes "Latin1", ⟨[32], [], by decide, by decide, by decide, by decide, by decide, by decide⟩,
    "latin1", by decide, by decide⟩, ?_⟩
  intro rest v h3 h4
  obtain rfl := first_unique h1 h3
  have e : codes " \" Latin1\";" = 32 :: 34 :: codes " Latin1\";" := by decide
  generalize hg : codes " \" Latin1\";" = x at *
  cases h4 with
  | quoted w q v r hw hq hv =>
    rcases v with _ | ⟨c, v⟩
    · exact .inl rfl
    right
    by_contra hn
    have hall : ∀ x ∈ c :: v, IsWs x := fun x hx => by
      by_contra h; exact hn ⟨x, hx, h⟩
    have hd := congrArg (List.dropWhile isAsciiWhiteSpace) e
    rw [drop_ws hw (by intro c hc; simp at hc; subst hc; rcases hq with rfl | rfl <;> simp [IsWs])] at hd
    have hd' : q :: (c :: v ++ q :: r) = 34 :: codes " Latin1\";" := by rw [hd]; decide
    injection hd' with hq' hr'
    subst hq'
    have h5 := congrArg (List.dropWhile isAsciiWhiteSpace) hr'
    rw [drop_ws hall (by simp [IsWs])] at h5
    have h6 : (codes " Latin1\";").dropWhile isAsciiWhiteSpace = codes "Latin1\";" := by decide
    rw [h6] at h5
    have h7 := congrArg List.head? h5
    revert h7; simp; decide
  | bare w v r hw hv hh hr =>
    rcases v with _ | ⟨c, v⟩
    · exact .inl rfl
    · exact .inr ⟨c, by simp, (hv c (by simp)).2⟩

/-- C111 fails: a value of white space only is undefined behaviour. -/
theorem C111_blank (s rest v : List Nat) (hs : ∀ c ∈ s, IsScalar c) (h1 : FirstDecl s rest) (h2 : Value rest v) (hv : v ≠ [])
    (hw : ∀ c ∈ v, IsWs c) : extract s = none := by
  rw [extract_eq s hs, (decl_iff _ _).2 h1]
  simp only
  rw [(value_some (fun c hc => hs c (decl_mem h1 c hc)) h2).1]
  apply C41_whitespace_ub
  · intro c hc
    obtain ⟨d, hd, rfl⟩ := List.mem_map.1 hc
    rw [← ws_iff, lower_ws, ws_iff]
    exact hw d hd
  · simpa using hv

theorem C111_statement_false : ¬ C111_statement := by
  intro h
  obtain ⟨o, h1, _⟩ := h (codes "charset=' '") (by decide)
  rw [C111_blank _ (codes "' '") [32] (by decide) ((decl_iff _ _).1 (by decide +kernel))
    (Value.quoted [] 39 [32] [] (by simp) (.inr rfl) (by decide)) (by simp) (by decide)] at h1
  cases h1

/-- The attributes of a `meta` element declare an encoding: by `charset`, or else as the `content` of `Content-Type`. -/
def ElementDeclares (as : List (List Nat × List Nat)) (e : Enc) : Prop :=
  (∃ v, as.lookup (codes "charset") = some v ∧ IsLabel v e) ∨
  ((∀ v, as.lookup (codes "charset") = some v → ∀ e', ¬ IsLabel v e') ∧
    ∃ h c, as.lookup (codes "http-equiv") = some h ∧ h.map lower = codes "content-type" ∧
      as.lookup (codes "content") = some c ∧ Declares c e)

theorem attr_eq (n : List Nat) (as : List (List Nat × List Nat)) : attr n as = as.lookup n := by
  induction as with
  | nil => rfl
  | cons a as ih =>
    obtain ⟨m, v⟩ := a
    rw [attr, List.lookup_cons, ih]
    by_cases h : m = n
    · subst h; simp
    · have : (n == m) = false := by simpa using fun e => h e.symm
      simp [h, this]

theorem lookup_mem {n v : List Nat} {as : List (List Nat × List Nat)} (h : as.lookup n = some v) : ∃ a ∈ as, a.2 = v := by
  induction as with
  | nil => cases h
  | cons a as ih =>
    obtain ⟨m, w⟩ := a
    rw [List.lookup_cons] at h
    split at h
    · cases h; exact ⟨_, List.mem_cons_self, rfl⟩
    · obtain ⟨b, hb, e⟩ := ih h
      exact ⟨b, by simp [hb], e⟩

/-- C111 for whole `meta` elements, partial: the encoding of the element is the one its attributes declare. Missing: labels of
white space only, as above. -/
theorem C111_element_partial (as : List (List Nat × List Nat)) (hs : ∀ a ∈ as, ∀ c ∈ a.2, IsScalar c)
    (h1 : ∀ v, as.lookup (codes "charset") = some v → v = [] ∨ ∃ c ∈ v, ¬ IsWs c)
    (h2 : ∀ v, as.lookup (codes "content") = some v → NotBlank v) :
    ∃ o, declared as = some o ∧ ∀ e, o = some e ↔ ElementDeclares as e := by
  have sc : ∀ n v, as.lookup n = some v → ∀ c ∈ v, IsScalar c := by
    intro n v h
    obtain ⟨a, ha, rfl⟩ := lookup_mem h
    exact hs a ha
  have k1 : nCharset = codes "charset" := by decide
  have k2 : nHttpEquiv = codes "http-equiv" := by decide
  have k3 : nContent = codes "content" := by decide
  -- the second way
  have second : ∃ o, ofHttpEquiv as = some o ∧ ∀ e, o = some e ↔
      ∃ h c, as.lookup (codes "http-equiv") = some h ∧ h.map lower = codes "content-type" ∧
        as.lookup (codes "content") = some c ∧ Declares c e := by
    unfold ofHttpEquiv
    rw [attr_eq, attr_eq, k2, k3]
    cases hh : as.lookup (codes "http-equiv") with
    | none => exact ⟨none, rfl, by simp⟩
    | some v =>
      have hm := C32_case_insensitive_match .c32 .c32 v contentType (sc _ _ hh) (by decide)
      rw [form32, form32, show contentType.map lower = codes "content-type" by decide] at hm
      simp only [hm]
      by_cases hv : v.map lower = codes "content-type"
      · simp only [hv, decide_true]
        cases hc : as.lookup (codes "content") with
        | none => exact ⟨none, rfl, by simp⟩
        | some c =>
          obtain ⟨o, g1, g2⟩ := C111_partial c (sc _ _ hc) (h2 c hc)
          exact ⟨o, g1, fun e => by rw [g2]; simp [hv]⟩
      · simp only [hv, decide_false]
        exact ⟨none, rfl, by simp [hv]⟩
  obtain ⟨o, s1, s2⟩ := second
  unfold declared
  rw [attr_eq, k1]
  cases hc : as.lookup (codes "charset") with
  | none =>
    refine ⟨o, s1, fun e => ?_⟩
    rw [s2]; simp [ElementDeclares, hc]
  | some v =>
    have hv := sc _ _ hc
    have std := C41_standard v hv (h1 v hc)
    obtain ⟨t, _, g⟩ := name_eq v hv (h1 v hc)
    simp only
    cases hn : find (t.map lower) labelMap with
    | some e0 =>
      rw [hn] at g
      rw [g]
      refine ⟨some e0, rfl, fun e => ?_⟩
      rw [g] at std
      simp only [Option.some.injEq] at std ⊢
      rw [std]
      constructor
      · intro h; exact .inl ⟨v, hc, h⟩
      · rintro (⟨w, hw, h⟩ | ⟨h, _⟩)
        · rw [hc] at hw; cases hw; exact h
        · exact absurd ((std e0).1 rfl) (h v hc e0)
    | none =>
      rw [hn] at g
      rw [g]
      refine ⟨o, s1, fun e => ?_⟩
      rw [g] at std
      simp only [Option.some.injEq, reduceCtorEq, false_iff] at std
      rw [s2]
      constructor
      · intro h
        refine .inr ⟨fun w hw e' => ?_, h⟩
        rw [hc] at hw; cases hw; exact std e'
      · rintro (⟨w, hw, h⟩ | ⟨_, h⟩)
        · rw [hc] at hw; cases hw; exact absurd h (std e)
        · exact h

/-- `<meta charset="x" http-equiv="content-TYPE" content="charset=koi8">`. -/
example : ElementDeclares [(codes "charset", codes "x"), (codes "http-equiv", codes "content-TYPE"),
    (codes "content", codes "charset=koi8")] .KOI8_R := by
  refine .inr ⟨?_, codes "content-TYPE", codes "charset=koi8", by decide, by decide, by decide, codes "koi8", codes "koi8",
    (decl_iff _ _).1 (by decide +kernel),
    Value.bare [] (codes "koi8") [] (by simp) (by decide) (by decide) (by simp),
    codes "koi8", ⟨[], [], by decide, by decide, by decide, by decide, by decide, by decide⟩, "koi8", by decide, by decide⟩
  intro v hv e' h
  have : v = codes "x" := by
    have h' : ([(codes "charset", codes "x"), (codes "http-equiv", codes "content-TYPE"),
      (codes "content", codes "charset=koi8")] : List _).lookup (codes "charset") = some (codes "x") := by decide
    rw [h'] at hv; exact (Option.some.inj hv).symm
  subst this
  have := (C41_standard (codes "x") (by decide) (.inr ⟨120, by decide, by decide⟩) e').2 h
  have h2 : getEncodingName (codes "x") = some none := by decide +kernel
  rw [h2] at this; cases this

end Verif.Props.Meta
