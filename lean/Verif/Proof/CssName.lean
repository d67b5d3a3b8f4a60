import Verif.Proof.CssEscape
namespace Verif.Proof.CssTok
open Verif.Model.Infra Verif.Model.Unicode Verif.Model.Coder Verif.Model.Percent Verif.Model.Host Verif.Model.CssTok
open Verif.Spec Verif.Spec.Infra Verif.Spec.Percent Verif.Spec.Host Verif.Spec.CssTok

/-! ### Identifiers -/

theorem validEscape_cons {c : Nat} {r : List Nat} (h : validEscape (c :: r) = true) :
    c = 0x5C ∧ r ≠ [] ∧ ¬ Starts Newline r := by
  cases r with
  | nil => cases h
  | cons b r =>
    rw [validEscape, Bool.and_eq_true, beq_iff_eq, Bool.not_eq_true'] at h
    exact ⟨h.1, by simp, by rw [starts_cons, ← newline_iff, h.2]; simp⟩

/-- `consume_identifier` always returns, at or behind where it began, and finds the identifier. -/
theorem identLoop_spec (acc s : List Nat) : ∃ r v, identLoop acc s = some (r, acc ++ v) ∧ r <:+ s ∧ (NoTail s → Name s v r) ∧
    (Starts IdentCp s ∨ validEscape s = true → r.length < s.length) := by
  induction hn : s.length using Nat.strongRecOn generalizing s acc with
  | _ n ih =>
    subst hn
    cases s with
    | nil =>
      refine ⟨[], [], by rw [identLoop]; simp, List.suffix_refl _, fun _ => .stop (by simp) ?_, ?_⟩
      · rintro ⟨r, h, -⟩; cases h
      · rintro (h | h)
        · simp at h
        · cases h
    | cons c s =>
      rw [identLoop]
      split
      · rename_i hc
        obtain ⟨r, v, h1, h2, h3, -⟩ := ih s.length (by simp) (acc ++ [c]) s rfl
        refine ⟨r, c :: v, by rw [h1]; simp, h2.trans (List.suffix_cons _ _), fun h => .cp ((identCp_iff c).mp hc) (h3 (h.suffix (List.suffix_cons _ _))),
          fun _ => ?_⟩
        have := h2.length_le
        simp only [List.length_cons]; omega
      · rename_i hc
        split
        · rename_i hv
          obtain ⟨rfl, hne, -⟩ := validEscape_cons hv
          obtain ⟨t, x, ht⟩ := escape_total s
          have he := (escape_iff _ _ _).mp ht
          have hl := escape_shorter he hne
          split
          · rename_i h; rw [ht] at h; cases h
          · rename_i t' x' h
            rw [ht] at h
            simp only [Option.some.injEq, Prod.mk.injEq] at h
            obtain ⟨rfl, rfl⟩ := h
            obtain ⟨r, v, h1, h2, h3, -⟩ := ih t.length (by simp only [List.length_cons]; omega) (acc ++ [x]) t rfl
            have hs : t <:+ 0x5C :: s := (escape_suffix he).trans (List.suffix_cons _ _)
            refine ⟨r, x :: v, by rw [h1]; simp, h2.trans hs, fun h => .esc (validEscape_sound hv) he (h3 (h.suffix hs)), fun _ => ?_⟩
            have := h2.length_le
            simp only [List.length_cons]; omega
        · rename_i hv
          refine ⟨c :: s, [], by simp, List.suffix_refl _, fun h => .stop ?_ ?_, ?_⟩
          · rw [starts_cons, ← identCp_iff]; exact hc
          · rw [← validEscape_iff h]; exact hv
          · rintro (h | h)
            · rw [starts_cons, ← identCp_iff] at h; exact absurd h hc
            · exact absurd h hv

theorem name_suffix {s v r : List Nat} (h : Name s v r) : r <:+ s := by
  induction h with
  | stop => exact List.suffix_refl _
  | cp _ _ ih => exact ih.trans (List.suffix_cons _ _)
  | esc _ he _ ih => exact (ih.trans (escape_suffix he)).trans (List.suffix_cons _ _)

theorem name_det {s v r v' r' : List Nat} (h : Name s v r) (h' : Name s v' r') : v = v' ∧ r = r' := by
  induction h generalizing v' r' with
  | stop h1 h2 =>
    cases h' with
    | stop => exact ⟨rfl, rfl⟩
    | cp h => simp [h] at h1
    | esc h => exact absurd h h2
  | @cp c s v r hc _ ih =>
    cases h' with
    | stop h1 => simp [hc] at h1
    | cp _ h =>
      obtain ⟨rfl, rfl⟩ := ih h
      exact ⟨rfl, rfl⟩
    | esc h => unfold IdentCp IdentStart Letter Digit at hc; omega
  | @esc c s t v r hv he _ ih =>
    cases h' with
    | stop _ h2 => exact absurd hv h2
    | cp hc => unfold IdentCp IdentStart Letter Digit at hc; omega
    | esc _ he' h =>
      obtain ⟨rfl, rfl⟩ := escape_det he he'
      obtain ⟨rfl, rfl⟩ := ih h
      exact ⟨rfl, rfl⟩

theorem ident_total (s : List Nat) : ∃ r v, consumeIdent s = some (r, v) ∧ r <:+ s ∧
    (Starts IdentCp s ∨ validEscape s = true → r.length < s.length) := by
  obtain ⟨r, v, h1, h2, -, h4⟩ := identLoop_spec [] s
  exact ⟨r, v, h1, h2, h4⟩

/-- `consume_identifier` finds exactly the identifier. -/
theorem ident_iff {s r v : List Nat} (hT : NoTail s) : consumeIdent s = some (r, v) ↔ Name s v r := by
  obtain ⟨r', v', h1, h2, h3, -⟩ := identLoop_spec [] s
  rw [consumeIdent, h1]
  simp only [List.nil_append, Option.some.injEq, Prod.mk.injEq]
  constructor
  · rintro ⟨rfl, rfl⟩; exact h3 hT
  · intro h
    obtain ⟨rfl, rfl⟩ := name_det h (h3 hT)
    exact ⟨rfl, rfl⟩

/-! ### Strings -/

theorem stringLoop_spec (q : Nat) (hq : Quote q) (acc s : List Nat) : ∃ r v b, Str q s v b r ∧ r <:+ s ∧
    stringLoop q acc s = some (r, if b then .string (acc ++ v) else .badString) := by
  induction hn : s.length using Nat.strongRecOn generalizing s acc with
  | _ n ih =>
    subst hn
    cases s with
    | nil => exact ⟨[], [], true, .eof, List.suffix_refl _, by rw [stringLoop]; simp⟩
    | cons c s =>
      rw [stringLoop.eq_def]
      dsimp only
      split
      · rename_i hc
        subst hc
        exact ⟨s, [], true, .close, List.suffix_cons _ _, by simp⟩
      · rename_i hc
        split
        · rename_i hn
          obtain rfl := (newline_iff c).mp hn
          exact ⟨_, [], false, .newline, List.suffix_refl _, by simp⟩
        · rename_i hn
          split
          · rename_i hb
            subst hb
            cases s with
            | nil => exact ⟨[], [], true, .last, List.suffix_cons _ _, by simp⟩
            | cons d s =>
              dsimp only
              split
              · rename_i hd
                obtain rfl := (newline_iff d).mp hd
                obtain ⟨r, v, b, h1, h2, h3⟩ := ih s.length (by simp only [List.length_cons]; omega) acc s rfl
                exact ⟨r, v, b, .fold h1, h2.trans ((List.suffix_cons _ _).trans (List.suffix_cons _ _)), h3⟩
              · rename_i hd
                obtain ⟨t, x, ht⟩ := escape_total (d :: s)
                have he := (escape_iff _ _ _).mp ht
                have hl := escape_shorter he (by simp)
                split
                · rename_i h; rw [ht] at h; cases h
                · rename_i t' x' h
                  rw [ht] at h
                  simp only [Option.some.injEq, Prod.mk.injEq] at h
                  obtain ⟨rfl, rfl⟩ := h
                  obtain ⟨r, v, b, h1, h2, h3⟩ := ih t.length (by simp only [List.length_cons] at *; omega) (acc ++ [x]) t rfl
                  refine ⟨r, x :: v, b, .esc (by simp) (by rw [starts_cons, ← newline_iff]; exact hd) he h1,
                    h2.trans ((escape_suffix he).trans (List.suffix_cons _ _)), ?_⟩
                  rw [h3]; simp
          · rename_i hb
            obtain ⟨r, v, b, h1, h2, h3⟩ := ih s.length (by simp) (acc ++ [c]) s rfl
            refine ⟨r, c :: v, b, .cp hc (by rw [← newline_iff]; exact hn) hb h1, h2.trans (List.suffix_cons _ _), ?_⟩
            rw [h3]; simp

theorem str_det {q : Nat} (hq : Quote q) {s v r v' r' : List Nat} {b b' : Bool} (h : Str q s v b r) (h' : Str q s v' b' r') :
    v = v' ∧ b = b' ∧ r = r' := by
  have hq1 : q ≠ 0x5C := by unfold Quote at hq; omega
  have hq2 : q ≠ 0x0A := by unfold Quote at hq; omega
  induction h generalizing v' b' r' with
  | eof => cases h'; exact ⟨rfl, rfl, rfl⟩
  | close =>
    cases h' with
    | close => exact ⟨rfl, rfl, rfl⟩
    | newline => exact absurd rfl hq2
    | last => exact absurd rfl hq1
    | fold => exact absurd rfl hq1
    | esc => exact absurd rfl hq1
    | cp h => exact absurd rfl h
  | newline =>
    cases h' with
    | close => exact absurd rfl hq2
    | newline => exact ⟨rfl, rfl, rfl⟩
    | cp _ h => exact absurd rfl h
  | last =>
    cases h' with
    | close => exact absurd rfl hq1
    | last => exact ⟨rfl, rfl, rfl⟩
    | esc h => exact absurd rfl h
    | cp _ _ h => exact absurd rfl h
  | fold _ ih =>
    cases h' with
    | close => exact absurd rfl hq1
    | fold h => exact ih h
    | esc _ h => simp [Newline] at h
    | cp _ _ h => exact absurd rfl h
  | esc h1 h2 he _ ih =>
    cases h' with
    | close => exact absurd rfl hq1
    | last => exact absurd rfl h1
    | fold h => simp [Newline] at h2
    | esc _ _ he' h =>
      obtain ⟨rfl, rfl⟩ := escape_det he he'
      obtain ⟨rfl, rfl, rfl⟩ := ih h
      exact ⟨rfl, rfl, rfl⟩
    | cp _ _ h => exact absurd rfl h
  | cp h1 h2 h3 _ ih =>
    cases h' with
    | close => exact absurd rfl h1
    | newline => exact absurd rfl h2
    | last => exact absurd rfl h3
    | fold => exact absurd rfl h3
    | esc => exact absurd rfl h3
    | cp _ _ _ h =>
      obtain ⟨rfl, rfl, rfl⟩ := ih h
      exact ⟨rfl, rfl, rfl⟩

/-- `consume_string_token` finds exactly the string. -/
theorem string_iff {q : Nat} (hq : Quote q) {s v r : List Nat} {b : Bool} (h : Str q s v b r) :
    consumeString q s = some (r, if b then .string v else .badString) := by
  obtain ⟨r', v', b', h1, -, h2⟩ := stringLoop_spec q hq [] s
  obtain ⟨rfl, rfl, rfl⟩ := str_det hq h h1
  rw [consumeString, h2]; simp

/-! ### Bad urls and comments -/

theorem badUrlLoop_spec (s : List Nat) : ∃ r, badUrlLoop s = some r ∧ r <:+ s ∧ Remnants s r := by
  induction hn : s.length using Nat.strongRecOn generalizing s with
  | _ n ih =>
    subst hn
    cases s with
    | nil => exact ⟨[], by rw [badUrlLoop], List.suffix_refl _, .eof⟩
    | cons c s =>
      rw [badUrlLoop]
      split
      · rename_i hc; subst hc
        exact ⟨s, rfl, List.suffix_cons _ _, .close⟩
      · rename_i hc
        obtain ⟨r, h1, h2, h3⟩ := ih s.length (by simp) s rfl
        split
        · rename_i hv
          obtain ⟨rfl, hne, -⟩ := validEscape_cons hv
          obtain ⟨t, x, ht⟩ := escape_total s
          have he := (escape_iff _ _ _).mp ht
          have hl := escape_shorter he hne
          split
          · rename_i h; rw [ht] at h; cases h
          · rename_i t' x' h
            rw [ht] at h
            simp only [Option.some.injEq, Prod.mk.injEq] at h
            obtain ⟨rfl, rfl⟩ := h
            obtain ⟨r, h1, h2, h3⟩ := ih t.length (by simp only [List.length_cons]; omega) t rfl
            exact ⟨r, h1, h2.trans ((escape_suffix he).trans (List.suffix_cons _ _)), .esc (validEscape_sound hv) he h3⟩
        · rename_i hv
          refine ⟨r, h1, h2.trans (List.suffix_cons _ _), ?_⟩
          by_cases hv' : ValidEscape (c :: s)
          · have hs : s = [] := by
              obtain ⟨r', h4, h5⟩ := hv'
              injection h4 with h4 h6
              subst h4 h6
              by_contra hne
              cases s with
              | nil => exact hne rfl
              | cons b s =>
                rw [starts_cons, ← newline_iff] at h5
                simp [validEscape, h5] at hv
            subst hs
            obtain ⟨r', h4, h5⟩ := id hv'
            injection h4 with h4 h6
            subst h4
            exact .esc hv' .eof h3
          · exact .cp hc hv' h3

theorem remnants_det {s r r' : List Nat} (h : Remnants s r) (h' : Remnants s r') : r = r' := by
  induction h generalizing r' with
  | eof => cases h'; rfl
  | close =>
    cases h' with
    | close => rfl
    | cp h => exact absurd rfl h
  | esc hv he _ ih =>
    cases h' with
    | esc _ he' h =>
      obtain ⟨rfl, rfl⟩ := escape_det he he'
      exact ih h
    | cp _ h => exact absurd hv h
  | cp hc hv _ ih =>
    cases h' with
    | close => exact absurd rfl hc
    | esc h => exact absurd h hv
    | cp _ _ h => exact ih h

theorem badUrl_spec (s : List Nat) : ∃ r, badUrl s = some (r, .badUrl) ∧ r <:+ s ∧ Remnants s r := by
  obtain ⟨r, h1, h2, h3⟩ := badUrlLoop_spec s
  exact ⟨r, by rw [badUrl, h1], h2, h3⟩

theorem afterComment_spec (s : List Nat) :
    (∃ b r, s = b ++ [0x2A, 0x2F] ++ r ∧ ¬ [0x2A, 0x2F] <:+: b ++ [0x2A] ∧ afterComment s = r) ∨
    (¬ [0x2A, 0x2F] <:+: s ∧ afterComment s = []) := by
  induction s with
  | nil => exact .inr ⟨by simp, rfl⟩
  | cons a s ih =>
    cases s with
    | nil => exact .inr ⟨by intro h; have := h.length_le; simp at this, rfl⟩
    | cons b s =>
      rw [afterComment]
      split
      · rename_i h
        obtain ⟨rfl, rfl⟩ := h
        exact .inl ⟨[], s, rfl, by intro h; have := h.length_le; simp at this, rfl⟩
      · rename_i h
        rcases ih with ⟨b', r, h1, h2, h3⟩ | ⟨h1, h2⟩
        · refine .inl ⟨a :: b', r, by rw [h1]; simp, ?_, h3⟩
          intro hi
          rw [List.cons_append, List.infix_cons_iff] at hi
          rcases hi with hi | hi
          · have hb : b = (b' ++ [0x2A]).head (by simp) := by
              cases b' with
              | nil => simp at h1; simp [h1.1]
              | cons x b' => simp at h1; simp [h1.1]
            obtain ⟨t, ht⟩ := hi
            have ht' : [0x2A, 0x2F] ++ t = a :: (b' ++ [0x2A]) := ht
            injection ht' with ha ht'
            apply h
            refine ⟨ha.symm, ?_⟩
            rw [hb]
            simp [← ht']
          · exact h2 hi
        · refine .inr ⟨?_, h2⟩
          intro hi
          rw [List.infix_cons_iff] at hi
          rcases hi with ⟨t, ht⟩ | hi
          · injection ht with ha ht
            injection ht with hb ht
            exact h ⟨ha.symm, hb.symm⟩
          · exact h1 hi

theorem comments_eq (s : List Nat) : Comments s (consumeComments s) ∧ consumeComments s <:+ s := by
  induction hn : s.length using Nat.strongRecOn generalizing s with
  | _ n ih =>
    subst hn
    rw [consumeComments.eq_def]
    split
    · rename_i a b r
      split
      · rename_i h
        obtain ⟨rfl, rfl⟩ := h
        rcases afterComment_spec r with ⟨b', r', h1, h2, h3⟩ | ⟨h1, h2⟩
        · rw [h3]
          subst h1
          obtain ⟨h4, h5⟩ := ih r'.length (by simp; omega) r' rfl
          exact ⟨.closed h2 h4, h5.trans (List.suffix_append ([0x2F, 0x2A] ++ b' ++ [0x2A, 0x2F]) r')⟩
        · rw [h2]
          rw [consumeComments.eq_def]
          exact ⟨.open h1, List.nil_suffix⟩
      · rename_i h
        refine ⟨.none ?_, List.suffix_refl _⟩
        rintro ⟨t, ht⟩
        injection ht with ha ht
        injection ht with hb ht
        exact h ⟨ha.symm, hb.symm⟩
    · rename_i h
      refine ⟨.none ?_, List.suffix_refl _⟩
      rintro ⟨t, ht⟩
      exact h _ _ _ ht.symm

theorem split_first {b b' r r' : List Nat} (h : b ++ [0x2A, 0x2F] ++ r = b' ++ [0x2A, 0x2F] ++ r')
    (hb : ¬ [0x2A, 0x2F] <:+: b ++ [0x2A]) (hb' : ¬ [0x2A, 0x2F] <:+: b' ++ [0x2A]) : b = b' ∧ r = r' := by
  have main : ∀ {b b' r r' : List Nat}, b ++ [0x2A, 0x2F] ++ r = b' ++ [0x2A, 0x2F] ++ r' → ¬ [0x2A, 0x2F] <:+: b' ++ [0x2A] →
      b'.length ≤ b.length := by
    intro b b' r r' h hb'
    by_contra hlt
    apply hb'
    have h1 : b ++ [0x2A, 0x2F] <+: b' ++ [0x2A] := by
      have p1 : b ++ [0x2A, 0x2F] <+: b' ++ [0x2A, 0x2F] ++ r' := ⟨r, h⟩
      have p2 : b' ++ [0x2A] <+: b' ++ [0x2A, 0x2F] ++ r' := ⟨0x2F :: r', by simp⟩
      exact List.prefix_of_prefix_length_le p1 p2 (by simp only [List.length_append, List.length_cons, List.length_nil]; omega)
    exact (List.suffix_append b _).isInfix.trans h1.isInfix
  have hl : b.length = b'.length := Nat.le_antisymm (main h.symm hb) (main h hb')
  rw [List.append_assoc, List.append_assoc] at h
  obtain ⟨rfl, h2⟩ := List.append_inj h hl
  exact ⟨rfl, by simpa using h2⟩

theorem comments_det {s r r' : List Nat} (h : Comments s r) (h' : Comments s r') : r = r' := by
  induction h generalizing r' with
  | none h1 =>
    cases h' with
    | none => rfl
    | closed => exact absurd ⟨_, by simp; rfl⟩ h1
    | «open» => exact absurd ⟨_, rfl⟩ h1
  | @closed b s r hb _ ih =>
    generalize hs : [0x2F, 0x2A] ++ b ++ [0x2A, 0x2F] ++ s = s' at h'
    cases h' with
    | none h1 => exact absurd ⟨b ++ [0x2A, 0x2F] ++ s, by rw [← hs]; simp⟩ h1
    | @closed b' s' r' hb' h2 =>
      have : b ++ [0x2A, 0x2F] ++ s = b' ++ [0x2A, 0x2F] ++ s' := by simpa using hs
      obtain ⟨rfl, rfl⟩ := split_first this hb hb'
      exact ih h2
    | @«open» b' hb' =>
      have : b ++ [0x2A, 0x2F] ++ s = b' := by simpa using hs
      exact absurd ⟨b, s, this⟩ hb'
  | @«open» b hb =>
    generalize hs : [0x2F, 0x2A] ++ b = s' at h'
    cases h' with
    | none h1 => exact absurd ⟨b, hs⟩ h1
    | @closed b' s' r' hb' h2 =>
      have : b = b' ++ [0x2A, 0x2F] ++ s' := by simpa using hs
      exact absurd ⟨b', s', this.symm⟩ hb
    | «open» => rfl

end Verif.Proof.CssTok
