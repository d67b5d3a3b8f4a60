import Verif.Proof.CssSerialize
/-
C51, C52 and C78-C81: the CSS tokenizer. `none` and `Ends.ub` are undefined behaviour (a read at the end, or a failing assertion),
`Ends.more` says that the calls so far did not reach the end of the text.
-/
namespace Verif.Props.CssTok
open Verif.Model.Infra Verif.Model.Unicode Verif.Model.Coder Verif.Model.Percent Verif.Model.Host
open Verif.Model.CssTok hiding Token
open Verif.Spec Verif.Spec.Infra Verif.Spec.Percent Verif.Spec.Host Verif.Spec.CssTok
open Verif.Proof.CssTok

/-- The text does not end in a reverse solidus. -/
def Untailed (s : List Nat) : Prop := ¬ [0x5C] <:+ s

/-! ### C51 -/

/-- C51: every call is defined, and takes something or finds the end; so `tokenize` stops. -/
def C51_statement : Prop :=
  ∀ s, (∃ r t, consumeToken s = some (r, t) ∧ r <:+ s ∧ (t = .eof ∨ r.length < s.length)) ∧ ∃ fuel ts, tokenize fuel s = .stop ts

/-- A full stop in front of a number, both not a number together, is never left. -/
theorem C51_stuck (s : List Nat) (h : Stuck s) (fuel : Nat) : (∃ t, consumeToken s = some (s, t) ∧ t ≠ .eof) ∧ tokenize fuel s = .more :=
  ⟨⟨_, by rw [consumeToken, comments_stuck h, stuck_step h], by simp⟩, stuck_forever h fuel⟩

theorem stuck_dots : Stuck (codes "..5") := by
  refine ⟨codes ".5", rfl, ?_, ?_⟩
  · rw [← startsNumber_iff]; decide
  · rw [← startsNumber_iff]; decide

example : tokenize 1000000 (codes "..5") = .more := (C51_stuck _ stuck_dots _).2

/-- C51 is false: `..5` is never left, and a `#` at the end reads behind it. -/
theorem C51_statement_false : ¬ C51_statement := by
  intro h
  obtain ⟨-, fuel, ts, h⟩ := h (codes "..5")
  rw [(C51_stuck _ stuck_dots fuel).2] at h
  cases h

/-- Reads at the end: `#`, and `url` in any case. -/
theorem C51_past_end : consumeToken (codes "#") = none ∧ consumeToken (codes "url") = none := by
  constructor <;> decide +kernel

/-- C51, partial. A call that returns takes at least one code point, unless it finds the end or the rest behind comments is stuck; it
is undefined only for a last `#`, a last `url` and numbers with digits that do not fit into 32 bits. Without anything stuck in it, no
text keeps `tokenize` going for more calls than it has code points and one; and it is undefined only for the same reasons. Missing:
these texts, for which it is false. -/
theorem C51_partial (s : List Nat) :
    (∀ r t, consumeToken s = some (r, t) → r <:+ s ∧ (t = .eof ∨ r.length < s.length ∨ Comments s r ∧ Stuck r)) ∧
    (consumeToken s = none → ∃ s', Comments s s' ∧ (s' = codes "#" ∨ UrlAtEnd s' ∨ LargeNumber s')) ∧
    ((∀ r, r <:+ s → ¬ Stuck r) → ∀ fuel, s.length < fuel → tokenize fuel s ≠ .more) ∧
    (∀ fuel, tokenize fuel s = .ub → ∃ r, r <:+ s ∧ (r = codes "#" ∨ UrlAtEnd r ∨ LargeNumber r)) := by
  obtain ⟨hc, hsuf⟩ := comments_eq s
  have hl := hsuf.length_le
  refine ⟨fun r t h => ?_, fun h => ?_, fun h fuel hf => tokenize_ends h hf, fun fuel h => tokenize_ub h⟩
  · by_cases he : consumeComments s = []
    · rw [eof_of_nil he] at h
      simp only [Option.some.injEq, Prod.mk.injEq] at h
      exact ⟨by rw [← h.1]; exact List.nil_suffix, .inl h.2.symm⟩
    · rcases consume_step he with ⟨r', t', h1, h2, h3, h4⟩ | ⟨h1, -⟩
      · rw [h] at h1
        simp only [Option.some.injEq, Prod.mk.injEq] at h1
        obtain ⟨rfl, rfl⟩ := h1
        refine ⟨h3.trans hsuf, .inr ?_⟩
        rcases h4 with h4 | ⟨rfl, h4⟩
        · exact .inl (by omega)
        · exact .inr ⟨hc, h4⟩
      · rw [h] at h1; cases h1
  · by_cases he : consumeComments s = []
    · rw [eof_of_nil he] at h; cases h
    · rcases consume_step he with ⟨r', t', h1, -⟩ | ⟨-, h2⟩
      · rw [h] at h1; cases h1
      · exact ⟨_, hc, h2⟩

example : tokenize 10 (codes "a{b:1}") =
    .stop [.ident (codes "a"), .openCurly, .ident (codes "b"), .colon, .number ⟨false, 1, 0, 0, false, 0⟩ true, .closeCurly] := by
  decide +kernel

/-! ### C52 -/

/-- C52: an escape is read, in every case, as the standard says: nothing as U+FFFD, one to six hexadecimal digits - as many as there
are - and a whitespace behind them as their number, and any other code point as itself. What it stands for is U+FFFD or a scalar value
if the text is one of scalar values. -/
theorem C52 (s : List Nat) :
    (∀ r c, consumeEscaped s = some (r, c) ↔ Escape s c r) ∧ (∃ r c, consumeEscaped s = some (r, c)) ∧
    ∀ r c, consumeEscaped s = some (r, c) → (∀ x ∈ s, IsScalar x) → IsScalar c := by
  refine ⟨fun r c => escape_iff s r c, escape_total s, fun r c h hs => ?_⟩
  rcases (escape_iff s r c).mp h with h | h | ⟨h, -⟩
  · unfold IsScalar; omega
  · exact hs _ (by simp)
  · unfold escaped
    split
    · unfold IsScalar; omega
    · rename_i h'; exact not_not.mp fun h'' => h' (.inr h'')

example : consumeEscaped (codes "0000416 b") = some (codes "6 b", 0x41) := by decide +kernel
example : consumeEscaped (codes "41 b") = some (codes "b", 0x41) := by decide +kernel
example : consumeEscaped (codes "d800") = some ([], 0xFFFD) := by decide +kernel

/-! ### C78 -/

/-- What may stand behind an identifier without being taken for a part of it. -/
def Follows (r : List Nat) : Prop := ¬ Starts IdentCp r ∧ ¬ ValidEscape r

/-- C78: an identifier written as CSSOM says is read back. -/
def C78_statement : Prop :=
  ∀ v r, v ≠ [] → Follows r → ¬ Starts (· = 0x28) r → ¬ Cdc <+: serializeIdent v ++ r →
    consumeToken (serializeIdent v ++ r) = some (r, .ident (withoutNul v))

/-- C78, partial: exactly the identifiers that are not `--`, do not begin with `--` and a digit, and are not `url` at the end of the
text are read back. Missing: these identifiers, for which it is false. -/
theorem C78_partial (v r : List Nat) (hv : v ≠ []) (hr : Follows r) (hp : ¬ Starts (· = 0x28) r) (hc : ¬ Cdc <+: serializeIdent v ++ r) :
    consumeToken (serializeIdent v ++ r) = some (r, .ident (withoutNul v)) ↔
      v ≠ codes "--" ∧ (¬ ∃ d t, Digit d ∧ v = codes "--" ++ d :: t) ∧ ¬ (r = [] ∧ IsUrl (withoutNul v)) := by
  have hiff : TwoDashes v ↔ v = codes "--" ∨ ∃ d t, Digit d ∧ v = codes "--" ++ d :: t := by
    constructor
    · rintro ⟨t, rfl, ht⟩
      cases t with
      | nil => exact .inl rfl
      | cons d t => exact .inr ⟨d, t, ht d rfl, rfl⟩
    · rintro (rfl | ⟨d, t, hd, rfl⟩)
      · exact ⟨[], rfl, by simp⟩
      · exact ⟨d :: t, rfl, by simpa using hd⟩
  rw [← and_assoc, ← not_or, ← hiff, consumeToken, ser_head hv]
  by_cases hd : TwoDashes v
  · obtain ⟨r', t, h1, h2⟩ := at_twoDashes hd hr hc
    rw [h1]
    simp only [Option.some.injEq, Prod.mk.injEq]
    exact ⟨fun h => absurd h.2 (h2 _), fun h => absurd hd h.1⟩
  · rw [at_ser hv r hd, identLike_of (ident_back v hr) hp]
    by_cases hu : r = [] ∧ IsUrl (withoutNul v)
    · simp [hd, hu]
    · simp [hd, hu]

theorem C78_statement_false : ¬ C78_statement := by
  intro h
  have := h (codes "--") [] (by decide) ⟨by simp, by rintro ⟨r, e, -⟩; cases e⟩ (by simp) (by decide)
  exact ((C78_partial _ _ (by decide) ⟨by simp, by rintro ⟨r, e, -⟩; cases e⟩ (by simp) (by decide)).mp this).1 rfl

/-- C78 for the other tokens with an identifier: at-keywords and hashes are always read back, and so are names of functions other
than `url`, with the exceptions above. -/
theorem C78_names (v r : List Nat) (hv : v ≠ []) :
    (Follows r → consumeToken (0x40 :: serializeIdent v ++ r) = some (r, .atKeyword (withoutNul v)) ∧
      consumeToken (0x23 :: serializeIdent v ++ r) = some (r, .hash (withoutNul v) true)) ∧
    (v ≠ codes "--" → (¬ ∃ d t, Digit d ∧ v = codes "--" ++ d :: t) → ¬ IsUrl (withoutNul v) →
      consumeToken (serializeIdent v ++ 0x28 :: r) = some (r, .function (withoutNul v))) := by
  refine ⟨fun hr => ?_, fun h1 h2 h3 => ?_⟩
  · have hs := ser_starts hv r
    have hb := ident_back v hr
    rw [List.cons_append, List.cons_append, consumeToken, consumeToken, no_comment (by decide), no_comment (by decide)]
    generalize serializeIdent v ++ r = s at hs hb
    constructor
    · show (if startsIdent s = true then
          match consumeIdent s with
          | none => none
          | some (r', x) => some (r', Model.CssTok.Token.atKeyword x)
        else some (s, .delim 0x40)) = _
      rw [if_pos hs, hb]
    · show onHash s = _
      cases s with
      | nil => cases hs
      | cons d s =>
        rw [onHash, if_pos, hb]; dsimp only
        · rw [hs]
        · rw [Bool.or_eq_true, identCp_iff]
          rw [startsIdent.eq_def] at hs; dsimp only at hs
          split at hs
          · rename_i h; exact .inl (.inr (.inr h))
          · split at hs
            · rename_i h; exact .inl (.inl ((identStart_iff d).mp h))
            · split at hs
              · exact .inr hs
              · cases hs
  · have hd : ¬ TwoDashes v := by
      rintro ⟨t, rfl, ht⟩
      cases t with
      | nil => exact h1 rfl
      | cons d t => exact h2 ⟨d, t, ht d rfl, rfl⟩
    have hst : Stops (0x28 :: r) := by
      refine ⟨?_, ?_⟩
      · rw [starts_cons, ← identCp_iff]; decide
      · rintro ⟨t, e, -⟩; simp at e
    rw [consumeToken, ser_head hv, at_ser hv _ hd]
    unfold consumeIdentLike
    rw [ident_back v hst]; dsimp only
    rw [isUrl_match, decide_eq_false h3]
    rfl

example : consumeToken (serializeIdent (codes "-1 a")) = some ([], .ident (codes "-1 a")) := by decide +kernel
example : serializeIdent (codes "1 a") = codes "\\31 \\ a" := by decide +kernel
example : consumeToken (codes "--1") = some (codes "-1", .number ⟨true, 0, 0, 0, false, 0⟩ true) := by decide +kernel

/-! ### C79 -/

/-- C79: a string written as CSSOM says is read back, whatever follows. -/
theorem C79 (v r : List Nat) : consumeToken (serializeString v ++ r) = some (r, .string (withoutNul v)) := by
  have h : serializeString v ++ r = 0x22 :: (v.flatMap stringChar ++ 0x22 :: r) := by simp [serializeString]
  rw [consumeToken, h, no_comment (by decide)]
  show consumeString 0x22 _ = _
  exact (string_iff (.inl rfl) (str_back v r)).trans rfl

example : consumeToken (serializeString [0x22, 0x0A, 0x5C, 0x20AC] ++ codes "x") = some (codes "x", .string [0x22, 0x0A, 0x5C, 0x20AC]) :=
  C79 _ _

/-! ### C80 -/

/-- C80: of a text that starts with a number the longest number is taken; its value is right and the flag says whether it is written as an
integer. -/
def C80_statement : Prop :=
  ∀ s, StartsNumber s → ∃ r v q b, consumeNumber s = some (r, v, b) ∧ NumberAt s q b r ∧ numValue v = q

/-- C80, partial: for all numbers, unless digits before the full stop, behind it or behind the `e` do not fit into 32 bits; and whether a
text starts with a number is seen. The value is exact; the `double` the library computes from the same parts is not modelled.
Missing: numbers with such digits, for which it is false. -/
theorem C80_partial (s : List Nat) :
    (StartsNumber s ↔ startsNumber s = true) ∧
    (StartsNumber s → ¬ LargeNumber s → ∃ r v q b, consumeNumber s = some (r, v, b) ∧ NumberAt s q b r ∧ numValue v = q) ∧
    (∀ q b r q' b' r', NumberAt s q b r → NumberAt s q' b' r' → q = q' ∧ b = b' ∧ r = r') := by
  refine ⟨(startsNumber_iff s).symm, fun h hl => ?_, fun q b r q' b' r' h h' => ?_⟩
  · obtain ⟨t, r, q, b, e1, -, e3, e4, e5⟩ := number_spec h
    rcases e5 with ⟨v, e5, e6⟩ | ⟨-, e6⟩
    · exact ⟨r, v, q, b, e5, ⟨t, e1, e3, e4⟩, e6⟩
    · exact absurd ⟨t, q, b, e3, ⟨r, e1.symm⟩, e4, e6⟩ hl
  · have := numberAt_det h h'
    tauto

/-- C80 is false: 4294967296 fails an assertion. -/
theorem C80_statement_false : ¬ C80_statement := by
  intro h
  have hs : StartsNumber (codes "4294967296") := by rw [← startsNumber_iff]; decide
  obtain ⟨r, v, q, b, h, -⟩ := h _ hs
  have : consumeNumber (codes "4294967296") = none := by decide +kernel
  rw [this] at h; cases h

example : consumeNumber (codes "-12.50e+3px") = some (codes "px", ⟨true, 12, 50, 2, false, 3⟩, false) := by decide +kernel
example : numValue ⟨true, 12, 50, 2, false, 3⟩ = -12500 := by norm_num [numValue]

/-! ### C81 -/

/-- C81: the tokens of a text are those of the standard. -/
def C81_statement : Prop := ∀ s ts, Tokens s ts ↔ ∃ fuel ts', tokenize fuel s = .stop ts' ∧ ts'.map tok = ts

/-- C81, partial: token for token and as a whole, if the text does not end in a reverse solidus and nothing in it is one of the seven
kinds of text listed as `Quirk`. The standard gives each text one list of tokens only. Missing: these texts, for which it is false. -/
theorem C81_partial (s : List Nat) (hT : Untailed s) :
    ((∀ s', Comments s s' → ¬ Quirk s') → ∀ t r, Token s t r ↔ ∃ t', consumeToken s = some (r, t') ∧ tok t' = t) ∧
    ((∀ s', s' <:+ s → ¬ Quirk s') →
      (∃ ts, Tokens s ts) ∧ (∀ ts ts', Tokens s ts → Tokens s ts' → ts = ts') ∧
      ∀ fuel, s.length < fuel → ∀ ts, Tokens s ts ↔ ∃ ts', tokenize fuel s = .stop ts' ∧ ts'.map tok = ts) := by
  refine ⟨fun hq t r => consume_iff hT hq t r, fun hq => ?_⟩
  have key := fun ts => tokenize_iff hT hq (Nat.lt_succ_self s.length) ts
  refine ⟨?_, fun ts ts' h h' => ?_, fun fuel hf ts => tokenize_iff hT hq hf ts⟩
  · have h1 := tokenize_ends (s := s) (fun r hr => by
      rintro ⟨x, rfl, h1, h2⟩
      exact hq _ hr (.number (by omega) h1 h2)) (Nat.lt_succ_self s.length)
    have h2 : tokenize (s.length + 1) s ≠ .ub := by
      intro h
      obtain ⟨r, hr, h | ⟨v, h3, h4, h5⟩ | ⟨t, q, b, h3, h4, h5, h6⟩⟩ := tokenize_ub h
      · subst h; exact hq _ hr .hash
      · refine hq _ hr (.urlEnd ⟨h3, ?_, h4⟩ h5)
        rintro ⟨x, rfl⟩
        have hx : Name (0x2D :: 0x2D :: 0x3E :: x) [0x2D, 0x2D] (0x3E :: x) := by
          refine .cp (.inr (.inr rfl)) (.cp (.inr (.inr rfl)) (.stop ?_ ?_))
          · rw [starts_cons, ← identCp_iff]; decide
          · rintro ⟨y, e, -⟩; simp at e
        exact absurd (name_det h4 hx).2 (by simp)
      · exact hq _ hr (.large h3 h4 h5 h6)
    cases h3 : tokenize (s.length + 1) s with
    | stop ts => exact ⟨_, (key _).mpr ⟨ts, h3, rfl⟩⟩
    | ub => exact absurd h3 h2
    | more => exact absurd h3 h1
  · obtain ⟨us, h1, rfl⟩ := (key _).mp h
    obtain ⟨us', h2, rfl⟩ := (key _).mp h'
    rw [h1] at h2
    injection h2 with h2
    rw [h2]

/-- Texts with another token than in the standard: `--`, an escape in `url()`, and a reverse solidus at the end. -/
theorem C81_departures :
    (TokenAt (codes "--") (.ident (codes "--")) [] ∧ consumeToken (codes "--") = some (codes "-", .delim 0x2D)) ∧
    (TokenAt (codes "url(\\))") (.url (codes ")")) [] ∧ consumeToken (codes "url(\\))") = some (codes ")", .badUrl)) ∧
    (TokenAt (codes "\\") (.ident [0xFFFD]) [] ∧ consumeToken (codes "\\") = some ([], .delim 0x5C)) ∧
    (TokenAt (codes "url(\"a\")") (.function (codes "url")) (codes "\"a\")") ∧
      consumeToken (codes "url(\"a\")") = some (codes "(\"a\")", .function (codes "url"))) := by
  have stop : Name [] [] [] := .stop (by simp) (by rintro ⟨r, e, -⟩; cases e)
  have paren : ∀ r, Name (0x28 :: r) [] (0x28 :: r) := fun r =>
    .stop (by rw [starts_cons, ← identCp_iff]; decide) (by rintro ⟨r, e, -⟩; simp at e)
  have cp : ∀ {c : Nat}, isIdentCp c = true → IdentCp c := fun h => (identCp_iff _).mp h
  have url : ∀ r, IdentLike (codes "url" ++ 0x28 :: r) (codes "url") (0x28 :: r) := fun r =>
    ⟨.inl ⟨0x75, _, rfl, (identStart_iff _).mp rfl⟩, (by rintro ⟨x, e⟩; cases e),
      .cp (cp rfl) (.cp (cp rfl) (.cp (cp rfl) (paren r)))⟩
  refine ⟨⟨.inl (.ident ⟨.inr (.inr ⟨[0x2D], rfl, .inr (.inl (by simp))⟩), by decide, ?_⟩ (by simp)), by decide +kernel⟩,
    ⟨.inl (.url (w := []) (r' := codes "\\))") (url _) (by decide) (by simp) ?_ ?_ ?_), by decide +kernel⟩,
    ⟨.inl (.ident ⟨.inr (.inl ⟨[], rfl, by simp⟩), by decide, .esc ⟨[], rfl, by simp⟩ .eof stop⟩ (by simp)), by decide +kernel⟩,
    ⟨.inl (.quoted (w := []) (r := codes "\"a\")") (url _) (by decide) (by simp) (.inl rfl) (.inl ⟨0x22, _, rfl, .inl rfl⟩)), by decide +kernel⟩⟩
  · exact .cp (cp rfl) (.cp (cp rfl) stop)
  · rintro ⟨c, r, e, h⟩
    have : c = 0x5C := by cases e; rfl
    unfold Ws at h; omega
  · rintro ⟨c, r, e, h⟩
    have : c = 0x5C := by cases e; rfl
    unfold Quote at h; omega
  · refine .close (v := [0x29]) (w := []) (.esc (t := [0x29]) ⟨[0x29, 0x29], rfl, ?_⟩ (.plain ?_) .nil) (by simp)
    · rw [starts_cons]; unfold Newline; omega
    · rw [← hex_iff]; decide

/-- Wherever a sign or a full stop is in front of something that starts a number, without being a part of it, the token is the number 0. -/
theorem C81_signs (c : Nat) (r : List Nat) (hc : c = 0x2B ∨ c = 0x2D ∨ c = 0x2E) (h : StartsNumber r) (hn : ¬ StartsNumber (c :: r)) :
    ∃ r' v, consumeToken (c :: r) = some (r', .number v true) ∧ numValue v = 0 ∧ ∀ q b x, ¬ TokenAt (c :: r) (.number q b) x := by
  have hz : ∀ b, numValue (zero b) = 0 := by intro b; simp [numValue, zero]
  have hno : ∀ q b x, ¬ TokenAt (c :: r) (.number q b) x := by
    rintro q b x (h' | ⟨-, d, -, h'⟩)
    · generalize hs : c :: r = s at h' hn
      generalize ht : Tok.number q b = t at h'
      cases h' with
      | number hN =>
        obtain ⟨t, e, h2, -⟩ := hN
        exact hn ⟨t, _, _, h2, ⟨_, e.symm⟩⟩
      | punct hp => subst ht; simp [punct] at hp
      | url _ _ _ _ _ hu => subst ht; cases hu
      | _ => cases ht
    · cases h'
  have hsn := (startsNumber_iff r).mpr h
  rw [consumeToken, no_comment (by omega)]
  rcases hc with rfl | rfl | rfl
  · refine ⟨r, zero false, ?_, hz _, hno⟩
    show (if startsNumber r = true then consumeNumeric (0x2B :: r) else some (r, .delim 0x2B)) = _
    rw [if_pos hsn, sign_zero (.inl rfl) h hn]; rfl
  · refine ⟨r, zero true, ?_, hz _, hno⟩
    show onMinus r = _
    rw [onMinus.eq_def, if_pos hsn, sign_zero (.inr rfl) h hn]; rfl
  · refine ⟨0x2E :: r, zero false, ?_, hz _, hno⟩
    exact stuck_step ⟨r, rfl, hn, h⟩

theorem C81_statement_false : ¬ C81_statement := by
  intro h
  obtain ⟨⟨h1, h2⟩, -⟩ := C81_departures
  have ht : Tokens (codes "--") [.ident (codes "--")] := by
    have hc : ∀ s : List Nat, ¬ [0x2F, 0x2A] <+: s → Comments s s := fun s h => .none h
    exact .cons ⟨_, hc _ (by decide), h1⟩ (by simp) (.eof (r := []) ⟨[], hc _ (by decide), .inl .eof⟩)
  obtain ⟨fuel, ts', h3, h4⟩ := (h _ _).mp ht
  cases fuel with
  | zero => cases h3
  | succ n =>
    rw [tokenize_succ, h2] at h3
    dsimp only at h3
    rw [if_neg (by simp)] at h3
    split at h3
    · injection h3 with h3
      rw [← h3] at h4
      simp [tok] at h4
    · cases h3
    · cases h3

example : ∃ s, Untailed s ∧ ∀ s', s' <:+ s → ¬ Quirk s' := by
  refine ⟨codes " ", by unfold Untailed; decide, ?_⟩
  intro s' hs hq
  have : s' = [] ∨ s' = [0x20] := by
    rcases List.suffix_cons_iff.mp hs with h | h
    · exact .inr h
    · exact .inl (List.suffix_nil.mp h)
  have hI : ∀ v r, IdentLike s' v r → False := by
    rintro v r ⟨h, -, -⟩
    rcases this with rfl | rfl
    · rcases h with ⟨c, r, e, -⟩ | ⟨r, e, -⟩ | ⟨r, e, -⟩ <;> simp at e
    · rcases h with h | ⟨r, e, -⟩ | ⟨r, e, -⟩
      · rw [starts_cons, ← identStart_iff] at h; cases h
      · simp at e
      · simp at e
  have hN : ¬ StartsNumber s' := by
    rw [← startsNumber_iff]
    rcases this with rfl | rfl <;> decide
  cases hq with
  | hash => simp at this
  | number hc h1 h2 => rcases this with h | h <;> simp at h; omega
  | dashes => simp at this
  | large h1 h2 => exact hN ⟨_, _, _, h1, h2⟩
  | urlEnd h => exact hI _ _ h
  | urlQuoted h => exact hI _ _ h
  | urlEscape h => exact hI _ _ h

end Verif.Props.CssTok
