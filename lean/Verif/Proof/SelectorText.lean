import Verif.Proof.CssParseTree
import Verif.Proof.CssStream
import Verif.Props.CssInput
import Verif.Props.CssTok
import Verif.Model.Selector
/-! Selectors as texts. -/
namespace Verif.Proof.SelectorText
open Verif.Model.Coder Verif.Model.CssParse Verif.Spec.CssParse Verif.Proof.CssParse
open Verif.Model.CssTok hiding Token
open Verif.Spec.CssTok (Tokens Quirk tok)
open Verif.Proof.CssTok (tokenize_succ tokenize_ends tokenize_iff)
open Verif.Model.Selector (parseSelector parseList Uris)
open Verif.Props.CssTok (Untailed)

theorem tokenize_mono {n : Nat} {s : List Nat} {ts : List Model.CssTok.Token} (h : tokenize n s = .stop ts) : ∀ m, n ≤ m → tokenize m s = .stop ts := by
  induction n generalizing s ts with
  | zero => simp [tokenize] at h
  | succ n ih =>
    intro m hm
    obtain ⟨m, rfl⟩ : ∃ k, m = k + 1 := ⟨m - 1, by omega⟩
    rw [tokenize_succ] at h ⊢
    cases hc : consumeToken s with
    | none => rw [hc] at h; simp at h
    | some p =>
      obtain ⟨r, t⟩ := p
      rw [hc] at h
      dsimp only at h ⊢
      by_cases ht : t = .eof
      · rw [if_pos ht] at h ⊢; exact h
      · rw [if_neg ht] at h ⊢
        cases hr : tokenize n r with
        | stop us => rw [hr] at h; rw [ih hr m (by omega)]; exact h
        | ub => rw [hr] at h; simp at h
        | more => rw [hr] at h; simp at h

theorem tokenize_short {n : Nat} {s : List Nat} {ts : List Model.CssTok.Token} (h : tokenize n s = .stop ts) : ts.length < n ∧ ∀ t ∈ ts, t ≠ .eof := by
  induction n generalizing s ts with
  | zero => simp [tokenize] at h
  | succ n ih =>
    rw [tokenize_succ] at h
    cases hc : consumeToken s with
    | none => rw [hc] at h; simp at h
    | some p =>
      obtain ⟨r, t⟩ := p
      rw [hc] at h
      dsimp only at h
      by_cases ht : t = .eof
      · rw [if_pos ht] at h
        injection h with h
        subst h
        simp
      · rw [if_neg ht] at h
        cases hr : tokenize n r with
        | stop us =>
          rw [hr] at h
          injection h with h
          subst h
          obtain ⟨h1, h2⟩ := ih hr
          refine ⟨by simp; omega, ?_⟩
          intro t' ht'
          rcases List.mem_cons.mp ht' with rfl | ht'
          · exact ht
          · exact h2 t' ht'
        | ub => rw [hr] at h; simp at h
        | more => rw [hr] at h; simp at h

theorem parse_text {w s : List Nat} (hw : Verif.Spec.CssInput.filter s = w) (hT : Untailed w) (hq : ∀ s', s' <:+ w → ¬ Quirk s') :
    ∃ (ts : List Model.CssTok.Token) (vs : List Prim), Tokens w (ts.map tok) ∧ Values true (ts.map .tok) vs ∧ (Matched (ts.map .tok) → Values false (ts.map .tok) vs) ∧
      ∀ (uris : Uris) fuel, 2 * w.length + 2 ≤ fuel → parseSelector uris fuel s = .stop (parseList uris vs) := by
  obtain ⟨⟨us, h1⟩, _, h2⟩ := (Verif.Props.CssTok.C81_partial w hT).2 hq
  obtain ⟨ts, h3, rfl⟩ := (h2 (w.length + 1) (by omega) us).mp h1
  obtain ⟨h4, h5⟩ := tokenize_short h3
  have hp : Plain (ts.map Prim.tok) := by
    intro p hp
    obtain ⟨t, ht, rfl⟩ := List.mem_map.mp hp
    exact ⟨by intro e; injection e with e; exact h5 t ht e, by simp⟩
  obtain ⟨vs, h⟩ := values_total true _ rfl hp
  obtain ⟨vs', h'⟩ := values_total false _ rfl hp
  refine ⟨ts, vs, h1, h, ?_, ?_⟩
  · intro hm
    rw [values_det h (matched_values hm h')]; exact h'
  · intro uris fuel hf
    have e1 := tokenize_mono h3 fuel (by omega)
    have e2 := parseValues_spec (f := fuel) hp h (by simp; omega)
    unfold parseSelector
    rw [Verif.Props.CssInput.C50_filter, hw]
    dsimp only
    rw [e1]
    dsimp only
    rw [e2]

open Verif.Spec.CssTok in
/-- Texts without digits, `#`, `-`, a reverse solidus or a `u` have no quirks. -/
theorem easy {w : List Nat} (h : ∀ c ∈ w, ¬ Digit c ∧ c ≠ 0x23 ∧ c ≠ 0x2D ∧ c ≠ 0x5C ∧ c ≠ 0x55 ∧ c ≠ 0x75) :
    Untailed w ∧ ∀ s', s' <:+ w → ¬ Quirk s' := by
  have hnum : ∀ {s : List Nat} {n : Nat}, Verif.Spec.Host.Numeral 10 s n → ∃ c ∈ s, Digit c := by
    intro s n h
    have key : ∀ {c v : Nat}, Verif.Spec.Percent.HexDigit c v → v < 10 → Digit c := by
      intro c v h hv
      unfold Verif.Spec.Percent.HexDigit at h
      unfold Digit
      omega
    cases h with
    | one h1 h2 => exact ⟨_, by simp, key h1 h2⟩
    | snoc _ h1 h2 => exact ⟨_, by simp, key h1 h2⟩
  have hman : ∀ {s q b}, Mantissa s q b → ∃ c ∈ s, Digit c := by
    intro s q b h
    cases h with
    | int _ h =>
      obtain ⟨c, hc, hd⟩ := hnum h
      exact ⟨c, by simp [hc], hd⟩
    | frac _ _ h =>
      obtain ⟨c, hc, hd⟩ := hnum h
      rcases List.mem_append.mp hc with hc | hc
      · exact ⟨c, by simp [hc], hd⟩
      · exact ⟨c, by simp [hc], hd⟩
  have hno : ∀ {s t : List Nat} {q b}, s <:+ w → Number t q b → t <+: s → False := by
    intro s t q b hs ht hp
    have : ∃ c ∈ t, Digit c := by
      cases ht with
      | plain hm => exact hman hm
      | up hm => obtain ⟨c, hc, hd⟩ := hman hm; exact ⟨c, by simp [hc], hd⟩
      | down hm => obtain ⟨c, hc, hd⟩ := hman hm; exact ⟨c, by simp [hc], hd⟩
    obtain ⟨c, hc, hd⟩ := this
    exact (h c (hs.subset (hp.subset hc))).1 hd
  have hname : ∀ {s v r : List Nat}, Name s v r → s <:+ w → ∀ c ∈ v, c ∈ w := by
    intro s v r hn
    induction hn with
    | stop => simp
    | @cp c s v r hc hn ih =>
      intro hs d hd
      rcases List.mem_cons.mp hd with rfl | hd
      · exact hs.subset (by simp)
      · exact ih ((List.suffix_cons _ _).trans hs) d hd
    | @esc c s t v r hv he hn ih =>
      intro hs
      exact absurd rfl (h 0x5C (hs.subset (by simp))).2.2.2.1
  have hurl : ∀ {s v r : List Nat}, s <:+ w → IdentLike s v r → IsUrl v → False := by
    intro s v r hs hi hu
    have hsub := hname hi.2.2 hs
    have e : v.map Verif.Spec.Infra.lower = [0x75, 0x72, 0x6C] := hu
    cases v with
    | nil => simp at e
    | cons c v =>
      simp only [List.map_cons, List.cons.injEq] at e
      have h1 := h c (hsub c (by simp))
      have h2 := e.1
      unfold Verif.Spec.Infra.lower at h2
      split at h2 <;> omega
  refine ⟨?_, ?_⟩
  · intro hs
    exact absurd rfl (h 0x5C (hs.subset (by simp))).2.2.2.1
  · intro s hs hq
    cases hq with
    | hash => exact absurd rfl (h 0x23 (hs.subset (by simp))).2.1
    | number hc h1 h2 =>
      obtain ⟨t, q, b, h3, h4⟩ := h2
      exact hno ((List.suffix_cons _ _).trans hs) h3 h4
    | dashes => exact absurd rfl (h 0x2D (hs.subset (by simp))).2.2.1
    | large h1 h2 => exact hno hs h1 h2
    | urlEnd h1 h2 => exact hurl hs h1 h2
    | urlQuoted h1 h2 => exact hurl hs h1 h2
    | urlEscape h1 h2 => exact hurl hs h1 h2

end Verif.Proof.SelectorText
