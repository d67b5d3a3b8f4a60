import Verif.Proof.CssProgress
namespace Verif.Proof.CssTok
open Verif.Model.Infra Verif.Model.Unicode Verif.Model.Coder Verif.Model.Percent Verif.Model.Host Verif.Model.CssTok
open Verif.Spec Verif.Spec.Infra Verif.Spec.Percent Verif.Spec.Host Verif.Spec.CssTok

theorem eof_of_nil {s : List Nat} (h : consumeComments s = []) : consumeToken s = some ([], .eof) := by
  rw [consumeToken, h]; rfl

theorem eof_iff {s r : List Nat} (h : consumeToken s = some (r, .eof)) : consumeComments s = [] ∧ r = [] := by
  cases hs : consumeComments s with
  | nil => rw [eof_of_nil hs] at h; simp only [Option.some.injEq, Prod.mk.injEq, and_true] at h; exact ⟨rfl, h.symm⟩
  | cons c t =>
    rw [consumeToken, hs] at h
    rcases token_step (c := c) (r := t) with ⟨r', t', h1, h2, -⟩ | ⟨h1, -⟩
    · rw [h] at h1; simp only [Option.some.injEq, Prod.mk.injEq] at h1; exact absurd h1.2.symm h2
    · rw [h] at h1; cases h1

/-- A step of the tokenizer. -/
theorem consume_step {s : List Nat} (hs : consumeComments s ≠ []) : Step (consumeComments s) (consumeToken s) := by
  unfold consumeToken
  cases h : consumeComments s with
  | nil => exact absurd h hs
  | cons c r => exact token_step

theorem comments_stuck {s : List Nat} (h : Stuck s) : consumeComments s = s := by
  obtain ⟨r, rfl, -⟩ := h
  rw [consumeComments.eq_def]
  split
  · rename_i a b r' e
    injection e with e1 e2
    rw [if_neg (by omega), e2, e1]
  · rfl

theorem stuck_forever {s : List Nat} (h : Stuck s) (fuel : Nat) : tokenize fuel s = .more := by
  induction fuel with
  | zero => rfl
  | succ n ih =>
    rw [tokenize.eq_def]; dsimp only
    rw [consumeToken, comments_stuck h, stuck_step h]; dsimp only
    rw [ih]

/-- One call of `tokenize`. -/
theorem tokenize_succ (n : Nat) (s : List Nat) :
    tokenize (n + 1) s = match consumeToken s with
      | none => .ub
      | some (r, t) => if t = .eof then .stop [] else
        match tokenize n r with
        | .stop ts => .stop (t :: ts)
        | .ub => .ub
        | .more => .more := by
  rw [tokenize.eq_def]; dsimp only
  split
  · rename_i h; rw [h]
  · rename_i h; rw [h]; simp
  · rename_i r t hne h
    rw [h]; dsimp only
    rw [if_neg (fun e => hne e)]
    cases tokenize n r <;> rfl

theorem tokenize_ends {s : List Nat} (hs : ∀ r, r <:+ s → ¬ Stuck r) {fuel : Nat} (hf : s.length < fuel) : tokenize fuel s ≠ .more := by
  induction fuel generalizing s with
  | zero => omega
  | succ n ih =>
    rw [tokenize_succ]
    have hsuf := (comments_eq s).2
    have hl := hsuf.length_le
    by_cases hc : consumeComments s = []
    · rw [eof_of_nil hc]; simp
    · rcases consume_step hc with ⟨r, t, h1, h2, h3, h4⟩ | ⟨h1, -⟩
      · rw [h1]; dsimp only
        rw [if_neg h2]
        rcases h4 with h4 | ⟨rfl, h4⟩
        · have := ih (s := r) (fun x hx => hs x (hx.trans (h3.trans hsuf))) (by omega)
          split
          · simp
          · simp
          · rename_i h; exact absurd h this
        · exact absurd h4 (hs _ hsuf)
      · rw [h1]; simp

theorem tokenize_ub {s : List Nat} {fuel : Nat} (h : tokenize fuel s = .ub) :
    ∃ r, r <:+ s ∧ (r = [0x23] ∨ UrlAtEnd r ∨ LargeNumber r) := by
  induction fuel generalizing s with
  | zero => cases h
  | succ n ih =>
    rw [tokenize_succ] at h
    have hsuf := (comments_eq s).2
    by_cases hc : consumeComments s = []
    · rw [eof_of_nil hc] at h; simp at h
    · rcases consume_step hc with ⟨r, t, h1, h2, h3, -⟩ | ⟨-, h2⟩
      · rw [h1] at h; dsimp only at h
        rw [if_neg h2] at h
        split at h
        · cases h
        · rename_i h'
          obtain ⟨x, hx, h''⟩ := ih h'
          exact ⟨x, hx.trans (h3.trans hsuf), h''⟩
        · cases h
      · exact ⟨_, hsuf, h2⟩

/-- "Consume a token" outside the quirks. -/
theorem consume_iff {s : List Nat} (hT : NoTail s) (hq : ∀ s', Comments s s' → ¬ Quirk s') (t : Tok) (r : List Nat) :
    Spec.CssTok.Token s t r ↔ ∃ t', consumeToken s = some (r, t') ∧ tok t' = t := by
  obtain ⟨hc, hsuf⟩ := comments_eq s
  unfold consumeToken
  rw [← token_iff (hT.suffix hsuf) (hq _ hc)]
  constructor
  · rintro ⟨s', h1, h2⟩
    rw [comments_det h1 hc] at h2; exact h2
  · intro h; exact ⟨_, hc, h⟩

theorem tok_eof {t : Model.CssTok.Token} : tok t = .eof ↔ t = .eof := by
  cases t <;> simp [tok]

theorem tokenize_iff {s : List Nat} (hT : NoTail s) (hq : ∀ s', s' <:+ s → ¬ Quirk s') {fuel : Nat} (hf : s.length < fuel) (ts : List Tok) :
    Tokens s ts ↔ ∃ ts', tokenize fuel s = .stop ts' ∧ ts'.map tok = ts := by
  induction fuel generalizing s ts with
  | zero => omega
  | succ n ih =>
    rw [tokenize_succ]
    have hsuf := (comments_eq s).2
    have hl := hsuf.length_le
    have hi := consume_iff hT fun s' h => hq s' (by rw [comments_det h (comments_eq s).1]; exact hsuf)
    constructor
    · rintro (h | ⟨h, h1, h2⟩)
      · obtain ⟨t', e, h'⟩ := (hi _ _).mp h
        rw [tok_eof] at h'; subst h'
        rw [e]; exact ⟨[], by simp, rfl⟩
      · rename_i r t ts
        obtain ⟨t', e, rfl⟩ := (hi _ _).mp h
        have hne : t' ≠ .eof := fun e => h1 (tok_eof.mpr e)
        have hc : consumeComments s ≠ [] := fun hc => hne (by
          rw [eof_of_nil hc] at e; simp only [Option.some.injEq, Prod.mk.injEq] at e; exact e.2.symm)
        rcases consume_step hc with ⟨r', t'', e1, e2, e3, e4⟩ | ⟨e1, -⟩
        · rw [e] at e1
          simp only [Option.some.injEq, Prod.mk.injEq] at e1
          obtain ⟨rfl, rfl⟩ := e1
          have hlt : r.length < s.length := by
            rcases e4 with e4 | ⟨rfl, q, e4, e5, e6⟩
            · omega
            · exact absurd (by rw [e4] at e5 ⊢; exact Quirk.number (by omega) e5 e6) (hq _ hsuf)
          obtain ⟨ts', f1, rfl⟩ := (ih (hT.suffix (e3.trans hsuf)) (fun x hx => hq x (hx.trans (e3.trans hsuf))) (by omega) _).mp h2
          rw [e]; dsimp only
          rw [if_neg hne, f1]
          exact ⟨_, rfl, rfl⟩
        · rw [e] at e1; cases e1
    · rintro ⟨ts', h, rfl⟩
      split at h
      · cases h
      · rename_i r t e
        split at h
        · rename_i ht
          subst ht
          injection h with h; subst h
          exact .eof ((hi _ _).mpr ⟨_, e, rfl⟩)
        · rename_i hne
          have hc : consumeComments s ≠ [] := fun hc => hne (by
            rw [eof_of_nil hc] at e; simp only [Option.some.injEq, Prod.mk.injEq] at e; exact e.2.symm)
          split at h
          · rename_i us f1
            injection h with h; subst h
            rcases consume_step hc with ⟨r', t'', e1, e2, e3, e4⟩ | ⟨e1, -⟩
            · rw [e] at e1
              simp only [Option.some.injEq, Prod.mk.injEq] at e1
              obtain ⟨rfl, rfl⟩ := e1
              have hlt : r.length < s.length := by
                rcases e4 with e4 | ⟨rfl, q, e4, e5, e6⟩
                · omega
                · exact absurd (by rw [e4] at e5 ⊢; exact Quirk.number (by omega) e5 e6) (hq _ hsuf)
              exact .cons ((hi _ _).mpr ⟨_, e, rfl⟩) (fun e => hne (tok_eof.mp e))
                ((ih (hT.suffix (e3.trans hsuf)) (fun x hx => hq x (hx.trans (e3.trans hsuf))) (by omega) _).mpr ⟨_, f1, rfl⟩)
            · rw [e] at e1; cases e1
          · cases h
          · cases h

end Verif.Proof.CssTok
