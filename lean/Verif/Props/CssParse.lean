import Verif.Proof.CssParseTree
/-
Properties of the CSS parser (C82-C89). Inputs are plain: tokens, functions and simple blocks without an end of file in between. The fuel is
any number above a bound that grows with the length of the input, so that the results say that the library returns.
-/
namespace Verif.Props.CssParse
open Verif.Model.Coder Verif.Model.CssTok Verif.Model.CssParse Verif.Spec.CssParse Verif.Proof.CssParse

/-- `(a]b)` -/
def mixed : List Prim := [.tok .openParen, .tok (.ident [0x61]), .tok .closeSquare, .tok (.ident [0x62]), .tok .closeParen]

/-- `f(a)[b]` -/
def nested : List Prim := [.tok (.function [0x66]), .tok (.ident [0x61]), .tok .closeParen, .tok .openSquare, .tok (.ident [0x62]), .tok .closeSquare]

theorem mixed_plain : Plain mixed := by
  intro p hp; simp [mixed] at hp; rcases hp with rfl | rfl | rfl | rfl | rfl <;> exact ⟨by simp, by simp⟩

theorem nested_plain : Plain nested := by
  intro p hp; simp [nested] at hp; rcases hp with rfl | rfl | rfl | rfl | rfl | rfl <;> exact ⟨by simp, by simp⟩

theorem nested_values (any : Bool) : Values any nested [.fn [0x66] [.tok (.ident [0x61])], .block 0x5B [.tok (.ident [0x62])]] := by
  refine .cons (.fn (.cons (by simp) (.token (by simp [Preserved])) (.close rfl))) (.cons (.block .square (.cons ?_ (.token (by simp [Preserved]))
    (.close (.inl rfl)))) .nil)
  simp [EndsBlock, Closer]

theorem nested_matched : Matched nested := by
  refine ⟨_, nested_values false, ?_⟩
  exact values_tree (fun p hp => by simp [nested] at hp; rcases hp with rfl | rfl | rfl | rfl | rfl | rfl <;> exact ⟨_, rfl⟩) (nested_values true)

/-! ### C82: lists of component values -/

/-- Any list is parsed to the component values of the standard. -/
def C82_statement : Prop := ∀ s, Plain s → ∃ vs, Values false s vs ∧ ∀ f, 2 * s.length + 2 ≤ f → parseValues f s = .stop vs

/-- `(a]b)` is a block with `a` alone. -/
theorem C82_statement_false : ¬ C82_statement := by
  intro h
  obtain ⟨vs, h1, h2⟩ := h mixed mixed_plain
  have h3 : Values true mixed [.block 0x28 [.tok (.ident [0x61])], .tok (.ident [0x62]), .tok .closeParen] := by
    refine .cons (.block .paren (.cons ?_ (.token (by simp [Preserved])) (.close (.inr ⟨rfl, .inr (.inl rfl)⟩)))) (.cons (.token ?_)
      (.cons (.token ?_) .nil))
    · simp [EndsBlock, Closer]
    · simp [Preserved]
    · simp [Preserved]
  have h4 := h2 _ (Nat.le_refl _)
  rw [parseValues_spec mixed_plain h3 (Nat.le_refl _)] at h4
  injection h4 with h4
  subst h4
  have h5 : Values false mixed [.block 0x28 [.tok (.ident [0x61]), .tok .closeSquare, .tok (.ident [0x62])]] := by
    refine .cons (.block .paren (.cons ?_ (.token ?_) (.cons ?_ (.token ?_) (.cons ?_ (.token ?_) (.close (.inl rfl)))))) .nil
    all_goals simp [EndsBlock, Preserved]
  cases values_det h1 h5

/-- Any list is parsed, as in the standard but with blocks that end at any closing token. It is the standard's result if brackets nest, and for
tokens only then. -/
theorem C82_partial (s : List Prim) (hp : Plain s) :
    ∃ vs vs', Values true s vs ∧ (∀ f, 2 * s.length + 2 ≤ f → parseValues f s = .stop vs) ∧ Values false s vs' ∧
      (Matched s → vs = vs') ∧ (AllTok s → vs = vs' → Matched s) := by
  obtain ⟨vs, h⟩ := values_total true _ rfl hp
  obtain ⟨vs', h'⟩ := values_total false _ rfl hp
  refine ⟨vs, vs', h, fun f hf => parseValues_spec hp h hf, h', fun hm => values_det h (matched_values hm h'), ?_⟩
  rintro ha rfl
  exact ⟨vs, h', values_tree ha h⟩

example : Plain mixed ∧ AllTok mixed := ⟨mixed_plain, fun p hp => by
  simp [mixed] at hp; rcases hp with rfl | rfl | rfl | rfl | rfl <;> exact ⟨_, rfl⟩⟩

example : Plain nested ∧ Matched nested := ⟨nested_plain, nested_matched⟩

/-! ### C83: component values and their tokens -/

/-- The tokens of a list of component values are parsed to that list. The tokens of the result of a parse are those of the input but for the kind
of closing tokens and for closing tokens missing at the end; and parsing them again gives the same result. -/
theorem C83 :
    (∀ vs f, (∀ x ∈ vs, Tree true x) → 2 * (writeAll vs).length + 2 ≤ f → parseValues f ((writeAll vs).map Prim.tok) = .stop vs) ∧
    (∀ s f, Plain s → 2 * s.length + 2 ≤ f → ∃ vs o, parseValues f s = .stop vs ∧
      (writeAll vs).map alike = (writeAll s).map alike ++ List.replicate o .closeParen ∧
      (AllTok s → ∀ g, 2 * (writeAll vs).length + 2 ≤ g → parseValues g ((writeAll vs).map Prim.tok) = .stop vs)) := by
  have h1 : ∀ vs f, (∀ x ∈ vs, Tree true x) → 2 * (writeAll vs).length + 2 ≤ f → parseValues f ((writeAll vs).map Prim.tok) = .stop vs := by
    intro vs f h hf
    exact parseValues_spec (write_plain h) (values_write h) (by simpa using hf)
  refine ⟨h1, ?_⟩
  intro s f hp hf
  obtain ⟨vs, h⟩ := values_total true _ rfl hp
  obtain ⟨o, ho⟩ := values_kept h
  exact ⟨vs, o, parseValues_spec hp h hf, ho, fun ha g hg => h1 vs g (values_tree ha h) hg⟩

/-- Trees that can be written: a function within a block. -/
example : Tree true (.block 0x5B [.fn [0x66] [.tok .comma], .tok .colon]) :=
  .block .square
    (by
      intro x hx
      simp at hx
      rcases hx with rfl | rfl
      · exact .fn (by simp; exact .tok (by simp [Preserved])) (by simp)
      · exact .tok (by simp [Preserved]))
    (by
      intro x hx u e
      simp at hx
      rcases hx with rfl | rfl
      · cases e
      · injection e with e; subst e; simp [EndsBlock, Closer])

/-! ### C84: one declaration -/

/-- Any list is parsed to the declaration of the standard, or to nothing. -/
def C84_statement : Prop := ∀ s, Plain s → ∃ d, Declaration false s d ∧ ∀ f, 2 * s.length + 2 ≤ f → parseDecl f s = .stop d

/-- `a:` -/
def noValue : List Prim := [.tok (.ident [0x61]), .tok .colon]

theorem noValue_plain : Plain noValue := by
  intro p hp; simp [noValue] at hp; rcases hp with rfl | rfl <;> exact ⟨by simp, by simp⟩

/-- `a:` makes `process_important` read in front of its empty vector. -/
theorem C84_statement_false : ¬ C84_statement := by
  intro h
  obtain ⟨d, -, h2⟩ := h noValue noValue_plain
  have h3 := h2 _ (Nat.le_refl _)
  rcases (parseDecl_spec noValue_plain (Nat.le_refl _) (w := []) rfl (by simp [Blank])).1 _ _ rfl with ⟨h4, -⟩ | ⟨-, h4⟩
  · exact h4 ⟨[], [], [], [], 0, rfl, by simp [Blank], by simp [Blank], (by rintro ⟨_, e⟩; cases e), .eof, .inr (.inl (by simp [Blank]))⟩
  · rw [h4] at h3; cases h3

/-- With a name in front, the result is undefined if the value is empty, is `important` alone or ends within a block or function; else it is the
declaration of the standard with blocks that end at any closing token, which is that of the standard if brackets nest. Without a name it is an
empty declaration, where the standard has none. -/
theorem C84_partial (s w rest : List Prim) (hp : Plain s) (h : s = w ++ rest) (hw : Blank w) (hn : ¬ WsHead rest) (f : Nat)
    (hf : 2 * s.length + 2 ≤ f) :
    (∀ n t, rest = .tok (.ident n) :: t →
      (Faulty true t ↔ parseDecl f s = .ub) ∧ (¬ Faulty true t → ∃ d, Declaration true s d ∧ parseDecl f s = .stop d) ∧
      (Matched s → ¬ Faulty true t → ∃ d, Declaration false s d ∧ parseDecl f s = .stop d)) ∧
    ((∀ n t, rest ≠ .tok (.ident n) :: t) → Declaration false s none ∧ parseDecl f s = .stop (some ⟨[], [], false⟩)) := by
  obtain ⟨h1, h2⟩ := parseDecl_spec hp hf h hw
  constructor
  · rintro n t rfl
    have h3 := h1 n t rfl
    refine ⟨?_, ?_, ?_⟩
    · constructor
      · intro hf
        rcases h3 with ⟨h4, -⟩ | ⟨-, h4⟩
        · exact absurd hf h4
        · exact h4
      · intro hu
        rcases h3 with ⟨-, d, -, h5⟩ | ⟨h4, -⟩
        · rw [hu] at h5; cases h5
        · exact h4
    · intro hf
      rcases h3 with ⟨-, d, h4, h5⟩ | ⟨h4, -⟩
      · exact ⟨d, by rw [h]; exact .decl hw h4, h5⟩
      · exact absurd h4 hf
    · intro hm hf
      rcases h3 with ⟨-, d, h4, h5⟩ | ⟨h4, -⟩
      · have ht : t <:+ s := by rw [h]; exact (List.suffix_cons _ _).trans (suffix_left _ _)
        obtain ⟨d', h6⟩ := declared_total false (hp.suffix ht) n
        have hmt : Matched t := by
          rw [h] at hm
          exact matched_tok (matched_blank hw hm) (by simp [Preserved])
        obtain rfl := declared_det h4 (matched_declared hmt h6)
        exact ⟨d, by rw [h]; exact .decl hw h6, h5⟩
      · exact absurd h4 hf
  · intro hr
    exact ⟨by rw [h]; exact .none hw hn hr, h2 hn hr⟩

/-- `a:b` is not faulty. -/
example : ¬ Faulty true [.tok .colon, .tok (.ident [0x62])] := by
  rintro ⟨w1, w2, t, vs, o, h1, h2, h3, h4, h5, h6⟩
  have h7 : w1 = [] := by
    cases w1 with
    | nil => rfl
    | cons p w => have := h2 p (by simp); subst this; cases h1
  subst h7
  rw [List.nil_append, List.cons_append] at h1
  injection h1 with _ h1
  have h8 : w2 = [] := by
    cases w2 with
    | nil => rfl
    | cons p w => have := h3 p (by simp); subst this; cases h1
  subst h8
  rw [List.nil_append] at h1
  subst h1
  have h9 : Until true false [.tok (.ident [0x62])] [.tok (.ident [0x62])] [] 0 :=
    .cons (o := 0) (o' := 0) (by simp) (.token (by simp [Preserved])) .eof
  obtain ⟨rfl, -, rfl⟩ := until_det h5 h9
  rcases h6 with h6 | h6
  · omega
  · rcases h6 with h6 | ⟨w1, w2, n, e, a, b, c⟩
    · have := h6 _ (List.mem_cons_self ..); cases this
    · cases w1 with
      | cons p w => have := a p (by simp); subst this; cases e
      | nil =>
        rw [List.nil_append] at e
        injection e with e
        injection e with e
        injection e with e
        subst e
        revert c; decide

/-! ### C85: lists of declarations -/

/-- Any list is parsed to the declarations and at-rules of the standard. -/
def C85_statement : Prop := ∀ s, Plain s → ∃ ds, Decls false s ds ∧ ∀ f, 2 * s.length + 3 ≤ f → parseDecls f s = .stop ds

theorem decls_run {s : List Prim} (hp : Plain s) {f : Nat} (hf : 2 * s.length + 3 ≤ f) :
    (¬ Stuck true s ∧ ∃ ds, Decls true s ds ∧ parseDecls f s = .stop ds) ∨ (Stuck true s ∧ parseDecls f s = .ub) := by
  have := run_decls hp _ rfl (at_start s) hf
  rw [pos_start] at this
  exact this

/-- `a:` -/
theorem C85_statement_false : ¬ C85_statement := by
  intro h
  obtain ⟨d, -, h2⟩ := h noValue noValue_plain
  have h3 := h2 _ (Nat.le_refl _)
  rcases decls_run noValue_plain (Nat.le_refl _) with ⟨h4, -⟩ | ⟨-, h4⟩
  · have hu : Until true true [.tok .colon] [.tok .colon] [] 0 := .cons (o := 0) (o' := 0) (by simp) (.token (by simp [Preserved])) .eof
    exact h4 (.decl hu (.inr ⟨[], [], [], [], 0, rfl, by simp [Blank], by simp [Blank], (by rintro ⟨_, e⟩; cases e), .eof,
      .inr (.inl (by simp [Blank]))⟩))
  · rw [h4] at h3; cases h3

/-- The result is undefined exactly if the list is stuck: one of its declarations has a value that is empty or `important` alone, or a
declaration or something skipped ends within a block or function. Else it is that of the standard with blocks that end at any closing token,
and that of the standard if brackets nest. -/
theorem C85_partial (s : List Prim) (hp : Plain s) (f : Nat) (hf : 2 * s.length + 3 ≤ f) :
    (Stuck true s ↔ parseDecls f s = .ub) ∧ (¬ Stuck true s → ∃ ds, Decls true s ds ∧ parseDecls f s = .stop ds) ∧
    (Matched s → ¬ Stuck true s → ∃ ds, Decls false s ds ∧ parseDecls f s = .stop ds) := by
  have h := decls_run hp hf
  refine ⟨?_, ?_, ?_⟩
  · constructor
    · intro hs
      rcases h with ⟨h, -⟩ | ⟨-, h⟩
      · exact absurd hs h
      · exact h
    · intro hu
      rcases h with ⟨-, ds, -, h⟩ | ⟨h, -⟩
      · rw [hu] at h; cases h
      · exact h
  · intro hs
    rcases h with ⟨-, h⟩ | ⟨h, -⟩
    · exact h
    · exact absurd h hs
  · intro hm hs
    rcases h with ⟨-, ds, h1, h2⟩ | ⟨h, -⟩
    · obtain ⟨ds', h3⟩ := decls_total false _ rfl hp
      obtain rfl := decls_det h1 (matched_decls hm h3)
      exact ⟨ds, h3, h2⟩
    · exact absurd h hs

/-- Declarations without a colon are no trouble. -/
example : Plain [.tok (.ident [0x61]), .tok .semicolon] ∧ ¬ Stuck true [.tok (.ident [0x61]), .tok .semicolon] := by
  refine ⟨?_, ?_⟩
  · intro p hp; simp at hp; rcases hp with rfl | rfl <;> exact ⟨by simp, by simp⟩
  · have hu : Until true true [.tok .semicolon] [] [.tok .semicolon] 0 := .semi rfl
    have hsemi : ¬ Stuck true [.tok .semicolon] := by
      intro h
      cases h with
      | skip _ h => cases h
      | junk _ h => exact h rfl
      | junkNext _ h => exact h rfl
    intro h
    cases h with
    | skip h => rcases h with h | h <;> cases h
    | decl h1 h2 =>
      obtain ⟨rfl, rfl, rfl⟩ := until_det h1 hu
      rcases h2 with h2 | ⟨w1, w2, t, vs, o, e, -⟩
      · omega
      · cases w1 <;> cases e
    | declNext h1 h2 =>
      obtain ⟨rfl, rfl, rfl⟩ := until_det h1 hu
      exact hsemi h2
    | junk _ _ _ h => exact absurd rfl (h _)
    | junkNext _ _ _ h => exact absurd rfl (h _)

/-! ### C86: one rule or component value -/

/-- Any list is parsed to the one component value or the one rule of the standard, or to nothing. -/
def C86_statement : Prop := ∀ s, Plain s → ∃ x r, OneValue false s x ∧ OneRule false s r ∧ ∀ f, 2 * s.length + 2 ≤ f →
  parseValue f s = .stop x ∧ parseRule f s = .stop r

/-- `(` runs into the assertion of `next_input_token`. -/
theorem C86_statement_false : ¬ C86_statement := by
  intro h
  have hp : Plain [.tok .openParen] := by intro p hp; simp at hp; rcases hp with rfl; exact ⟨by simp, by simp⟩
  obtain ⟨x, r, -, -, h2⟩ := h [.tok .openParen] hp
  have h3 := (h2 _ (Nat.le_refl _)).1
  have h4 := ((parseValue_spec hp (show 2 * [Prim.tok .openParen].length + 1 ≤ 2 * [Prim.tok .openParen].length + 2 by simp)).2 [] _ _ _ _ rfl
    (by simp [Blank]) (by rintro ⟨_, e⟩; cases e) (.block .paren .eof)).1 (by simp)
  rw [h4] at h3; cases h3

/-- The results are undefined exactly if the value or rule at the front ends within a block, a function or a prelude; else they are those of the
standard with blocks that end at any closing token, and those of the standard if brackets nest. -/
theorem C86_partial (s : List Prim) (hp : Plain s) (f : Nat) (hf : 2 * s.length + 2 ≤ f) :
    ((parseValue f s = .ub ↔ ∃ w rest x r o, s = w ++ rest ∧ Blank w ∧ ¬ WsHead rest ∧ Value true rest x r o ∧ 0 < o) ∧
      (parseValue f s = .ub ∨ ∃ x, parseValue f s = .stop x ∧ OneValue true s x ∧ (Matched s → OneValue false s x))) ∧
    ((parseRule f s = .ub ↔ ∃ w rest x r o, s = w ++ rest ∧ Blank w ∧ ¬ WsHead rest ∧ rest ≠ [] ∧ RuleAt true rest (some x) r o ∧ 0 < o) ∧
      (parseRule f s = .ub ∨ ∃ x, parseRule f s = .stop x ∧ OneRule true s x ∧ (Matched s → OneRule false s x))) := by
  obtain ⟨w, rest, rfl, hw, hn⟩ := split_ws s
  constructor
  · obtain ⟨h1, h2⟩ := parseValue_spec (f := f) hp (by omega)
    by_cases hr : rest = []
    · subst hr
      have hb : Blank (w ++ []) := by simpa using hw
      refine ⟨⟨fun e => ?_, ?_⟩, .inr ⟨none, h1 hb, .empty hb, fun _ => .empty hb⟩⟩
      · rw [h1 hb] at e; cases e
      · rintro ⟨w', rest', x, r, o, e, hw', hn', hv, -⟩
        obtain ⟨-, rfl⟩ := ws_unique e hw hw' hn hn'
        cases hv
    · obtain ⟨x, r, o, hv⟩ := value_total true hr (hp.suffix (suffix_left w rest))
      obtain ⟨h3, h4, h5⟩ := h2 w rest x r o rfl hw hn hv
      have hvf : Matched (w ++ rest) → Value false rest x r o := by
        intro hm
        obtain ⟨x', r', o', h6⟩ := value_total false hr (hp.suffix (suffix_left w rest))
        obtain ⟨rfl, rfl, rfl⟩ := value_det hv (matched_value (matched_blank hw hm) h6).1
        exact h6
      constructor
      · constructor
        · intro e
          refine ⟨w, rest, x, r, o, rfl, hw, hn, hv, ?_⟩
          by_contra ho
          by_cases hb : Blank r
          · rw [h4 (by omega) hb] at e; cases e
          · rw [h5 (by omega) hb] at e; cases e
        · rintro ⟨w', rest', x', r', o', e, hw', hn', hv', ho⟩
          obtain ⟨rfl, rfl⟩ := ws_unique e hw hw' hn hn'
          obtain ⟨rfl, rfl, rfl⟩ := value_det hv hv'
          exact h3 ho
      · by_cases ho : o = 0
        · by_cases hb : Blank r
          · exact .inr ⟨_, h4 ho hb, .one hw hn hv hb, fun hm => .one hw hn (hvf hm) hb⟩
          · exact .inr ⟨_, h5 ho hb, .more hw hn hv hb, fun hm => .more hw hn (hvf hm) hb⟩
        · exact .inl (h3 (by omega))
  · obtain ⟨h1, h1', h2⟩ := parseRule_spec (f := f) hp (by omega)
    by_cases hr : rest = []
    · subst hr
      have hb : Blank (w ++ []) := by simpa using hw
      refine ⟨⟨fun e => ?_, ?_⟩, .inr ⟨none, h1 hb, .empty hb, fun _ => .empty hb⟩⟩
      · rw [h1 hb] at e; cases e
      · rintro ⟨w', rest', x, r, o, e, hw', hn', hne, -⟩
        obtain ⟨-, rfl⟩ := ws_unique e hw hw' hn hn'
        exact absurd rfl hne
    · obtain ⟨x, r, o, hv⟩ := ruleAt_total true (hp.suffix (suffix_left w rest))
      have hvf : Matched (w ++ rest) → RuleAt false rest x r o := by
        intro hm
        obtain ⟨x', r', o', h6⟩ := ruleAt_total false (hp.suffix (suffix_left w rest))
        obtain ⟨rfl, rfl, rfl⟩ := ruleAt_det hv (matched_ruleAt (matched_blank hw hm) h6).1
        exact h6
      cases x with
      | none =>
        have h3 := h1' w rest r o rfl hw hn hr hv
        refine ⟨⟨fun e => ?_, ?_⟩, .inr ⟨none, h3, .lost hw hr hn hv, fun hm => .lost hw hr hn (hvf hm)⟩⟩
        · rw [h3] at e; cases e
        · rintro ⟨w', rest', x', r', o', e, hw', hn', hne, hv', ho⟩
          obtain ⟨rfl, rfl⟩ := ws_unique e hw hw' hn hn'
          obtain ⟨e, -, -⟩ := ruleAt_det hv hv'
          cases e
      | some x =>
        obtain ⟨h3, h4, h5⟩ := h2 w rest x r o rfl hw hn hr hv
        constructor
        · constructor
          · intro e
            refine ⟨w, rest, x, r, o, rfl, hw, hn, hr, hv, ?_⟩
            by_contra ho
            by_cases hb : Blank r
            · rw [h4 (by omega) hb] at e; cases e
            · rw [h5 (by omega) hb] at e; cases e
          · rintro ⟨w', rest', x', r', o', e, hw', hn', hne, hv', ho⟩
            obtain ⟨rfl, rfl⟩ := ws_unique e hw hw' hn hn'
            obtain ⟨e, rfl, rfl⟩ := ruleAt_det hv hv'
            exact h3 ho
        · by_cases ho : o = 0
          · by_cases hb : Blank r
            · exact .inr ⟨_, h4 ho hb, .one hw hr hn hv hb, fun hm => .one hw hr hn (hvf hm) hb⟩
            · exact .inr ⟨_, h5 ho hb, .more hw hr hn hv hb, fun hm => .more hw hr hn (hvf hm) hb⟩
          · exact .inl (h3 (by omega))

/-- `f(a)[b]` has two values, so none. -/
example : Plain nested ∧ OneValue false nested none := by
  refine ⟨nested_plain, ?_⟩
  have h := nested_values false
  cases h with
  | cons h h' =>
    refine OneValue.more (w := []) (by simp [Blank]) (by rintro ⟨_, e⟩; cases e) h ?_
    intro hb
    cases h' with
    | cons h1 =>
      cases h1 with
      | block hp => cases hp; have := hb _ (List.mem_cons_self ..); cases this
      | givenBlock => have := hb _ (List.mem_cons_self ..); cases this

/-! ### C87: comma-separated lists -/

/-- The lists between commas: joined with commas they are the component values of the whole, and none has a comma. -/
theorem C87 (s : List Prim) (hp : Plain s) (f : Nat) (hf : 2 * s.length + 2 ≤ f) :
    ∃ vs xss, parseValues f s = .stop vs ∧ parseCommaValues f s = .stop xss ∧ xss ≠ [] ∧ List.intercalate [.tok .comma] xss = vs ∧
      ∀ xs ∈ xss, ∀ x ∈ xs, x ≠ .tok .comma := by
  obtain ⟨vs, h⟩ := values_total true _ rfl hp
  obtain ⟨xss, h1, h2, h3, h4⟩ := run_comma hp _ rfl (at_start s) h (y := []) (by simp) hf
  rw [pos_start] at h1
  exact ⟨vs, xss, parseValues_spec hp h hf, h1, h2, h3, h4⟩

/-- `a,` is two lists. -/
example : parseCommaValues 20 [.tok (.ident [0x61]), .tok .comma] = .stop [[.tok (.ident [0x61])], []] := rfl

/-! ### C88: stylesheets -/

/-- Any list is parsed to the rules of the standard. -/
def C88_statement : Prop := ∀ s, Plain s → ∃ rs, Rules false true s rs ∧ ∀ f, 2 * s.length + 3 ≤ f → parseStylesheet f s = .stop rs

/-- `{]}`: the block ends at `]`. -/
def curled : List Prim := [.tok .openCurly, .tok .closeSquare, .tok .closeCurly]

theorem curled_plain : Plain curled := by
  intro p hp; simp [curled] at hp; rcases hp with rfl | rfl | rfl <;> exact ⟨by simp, by simp⟩

theorem C88_statement_false : ¬ C88_statement := by
  intro h
  obtain ⟨vs, h1, h2⟩ := h curled curled_plain
  have h3 : Rules true true curled [.qualified [] (.block 0x7B [])] := by
    have hr : RuleAt true curled (some (.qualified [] (.block 0x7B []))) [.tok .closeCurly] 0 :=
      .qualified (fun n r' e => by cases e) (.curly (.close (.inr ⟨rfl, .inr (.inl rfl)⟩)))
    have hl : RuleAt true [.tok .closeCurly] none [] (0 + 1) :=
      .lost (fun n r' e => by cases e) (.cons (by simp) (by simp) (by simp) (.token (by simp [Preserved])) .eof)
    exact .rule (by simp [Between]) hr (.rule (x := none) (by simp [Between]) hl .nil)
  have h4 := h2 _ (Nat.le_refl _)
  rw [parseStylesheet, consumeRules_spec curled_plain h3 (Nat.le_refl _)] at h4
  injection h4 with h4
  subst h4
  have h5 : Rules false true curled [.qualified [] (.block 0x7B [.tok .closeSquare])] := by
    refine .rule (x := some _) (by simp [Between]) (.qualified (fun n r' e => by cases e) (.curly (.cons ?_ (.token ?_) (.close (.inl rfl))))) .nil
    all_goals simp [EndsBlock, Preserved]
  cases rules_det h1 h5

/-- Any list is parsed to the rules of the standard with blocks that end at any closing token, which are those of the standard if brackets nest. -/
theorem C88_partial (s : List Prim) (hp : Plain s) :
    ∃ rs, Rules true true s rs ∧ (Matched s → Rules false true s rs) ∧ ∀ f, 2 * s.length + 3 ≤ f → parseStylesheet f s = .stop rs := by
  obtain ⟨rs, h⟩ := rules_total true true _ rfl hp
  refine ⟨rs, h, fun hm => ?_, fun f hf => consumeRules_spec hp h hf⟩
  obtain ⟨rs', h'⟩ := rules_total false true _ rfl hp
  obtain rfl := rules_det h (matched_rules hm h')
  exact h'

example : Plain curled := curled_plain

/-! ### C89: lists of rules -/

/-- Any list is parsed to the rules of the standard, where `<!--` and `-->` belong to rules. -/
def C89_statement : Prop := ∀ s, Plain s → ∃ rs, Rules false false s rs ∧ ∀ f, 2 * s.length + 3 ≤ f → parseRules f s = .stop rs

/-- `<!--{}`: the rule loses its prelude. -/
theorem C89_statement_false : ¬ C89_statement := by
  intro h
  have hp : Plain [.tok .cdo, .tok .openCurly, .tok .closeCurly] := by
    intro p hp; simp at hp; rcases hp with rfl | rfl | rfl <;> exact ⟨by simp, by simp⟩
  obtain ⟨vs, h1, h2⟩ := h _ hp
  have h3 : Rules true true [.tok .cdo, .tok .openCurly, .tok .closeCurly] [.qualified [] (.block 0x7B [])] :=
    .skip (.inr ⟨rfl, .inl rfl⟩) (.rule (x := some _) (by simp [Between]) (.qualified (fun n r' e => by cases e) (.curly (.close (.inl rfl)))) .nil)
  have h4 := h2 _ (Nat.le_refl _)
  rw [parseRules, consumeRules_spec hp h3 (Nat.le_refl _)] at h4
  injection h4 with h4
  subst h4
  have h5 : Rules false false [.tok .cdo, .tok .openCurly, .tok .closeCurly] [.qualified [.tok .cdo] (.block 0x7B [])] :=
    .rule (x := some _) (by simp [Between]) (.qualified (fun n r' e => by cases e)
      (.cons (by simp) (by simp) (by simp) (.token (by simp [Preserved])) (.curly (.close (.inl rfl))))) .nil
  cases rules_det h1 h5

/-- Any list is parsed, to the rules of the standard if brackets nest and no rule begins with `<!--` or `-->`. -/
theorem C89_partial (s : List Prim) (hp : Plain s) :
    ∃ rs, Rules true true s rs ∧ (¬ Stray true s → Rules true false s rs) ∧ (Matched s → ¬ Stray false s → Rules false false s rs) ∧
      ∀ f, 2 * s.length + 3 ≤ f → parseRules f s = .stop rs := by
  obtain ⟨rs, h, hm, hf⟩ := C88_partial s hp
  exact ⟨rs, h, rules_noStray h, fun h1 h2 => rules_noStray (hm h1) h2, hf⟩

/-- Below the top level, a rule that begins with `<!--` or `-->` always runs into the assertion of `consume_at_rule`; without one the rules are as
in the standard with blocks that end at any closing token. -/
theorem C89_inner (s : List Prim) (hp : Plain s) (f : Nat) (hf : 2 * s.length + 3 ≤ f) :
    (Stray true s → consumeRules f false s = .ub) ∧ (¬ Stray true s → ∃ rs, Rules true false s rs ∧ consumeRules f false s = .stop rs) := by
  obtain ⟨rs, h⟩ := rules_total true false _ rfl hp
  have := run_inner hp _ rfl (at_start s) h hf
  rw [pos_start] at this
  rcases this with ⟨h1, h2⟩ | ⟨h1, h2⟩
  · exact ⟨fun h3 => absurd h3 h1, fun _ => ⟨rs, h, h2⟩⟩
  · exact ⟨fun _ => h2, fun h3 => absurd h1 h3⟩

example : Stray true [.tok .whitespace, .tok .cdc] := .skip (.here (.inr rfl))

end Verif.Props.CssParse
