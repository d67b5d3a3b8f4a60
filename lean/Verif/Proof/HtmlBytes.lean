import Verif.Model.HtmlBytes
import Verif.Proof.HtmlTreeText
import Verif.Props.TextDecoder
/- Lemmas for C112. -/
namespace Verif.Proof.HtmlBytes
open Verif.Model.Legacy Verif.Model.Meta Verif.Model.HtmlTree Verif.Model.TextDecoder Verif.Model.HtmlBytes
open Verif.Model.HtmlTok (feed Find M)

theorem feed_append {σ : Type} (T : Model.HtmlTok.Sink σ) (find : Find) (f : Nat) (a b : List Nat) : ∀ (cr : Bool) (m : M σ),
    feed T find f cr (a ++ b) m = (feed T find f cr a m).bind fun x => feed T find f x.1 b x.2 := by
  induction a with
  | nil => intro cr m; rfl
  | cons c a ih =>
    intro cr m
    rw [List.cons_append, feed, feed]
    cases Model.HtmlTok.pushAll T find f ((Model.HtmlInput.pushCodePoint cr c).2.filterMap Model.HtmlTok.emitOf) m with
    | none => rfl
    | some m' => exact ih _ _

/-- What the `meta` elements of a text declare. -/
def said (tbl : List Nat → Bool) (find : Find) (f : Nat) (p : List Nat) : Option (Option Enc) :=
  match parse tbl find f p with
  | some r => firstOf (metas r)
  | none => some none

/-- The loop once the confidence is not tentative. -/
theorem pass_sure {tbl : List Nat → Bool} {find : Find} {f : Nat} {cur : Enc} {conf : Confidence} (hc : conf ≠ .tentative) (l : List Nat) :
    ∀ (cr : Bool) (m : M (R S)), pass tbl find f cur conf cr l m =
      match feed (sink tbl) find f cr l m with
      | none => .endless
      | some x => .done x.2.sink := by
  induction l with
  | nil => intro cr m; rfl
  | cons c l ih =>
    intro cr m
    rw [pass, show c :: l = [c] ++ l from rfl, feed_append]
    cases feed (sink tbl) find f cr [c] m with
    | none => rfl
    | some x =>
      simp only [if_neg hc, Option.bind_some]
      exact ih _ _

/-- How the loop goes from behind a prefix. -/
theorem pass_from {tbl : List Nat → Bool} {find : Find} {f : Nat} {cur : Enc} (l : List Nat) :
    ∀ (p : List Nat) (cr : Bool) (m : M (R S)), feed (sink tbl) find f false p (Model.HtmlTok.init (.ok init)) = some (cr, m) →
    match pass tbl find f cur .tentative cr l m with
    | .endless => ∃ q, q <+: l ∧ parse tbl find f (p ++ q) = none
    | .undefined => ∃ q, q <+: l ∧ said tbl find f (p ++ q) = none
    | .done r => parse tbl find f (p ++ l) = some r ∧
        ((∀ q, q ≠ [] → q <+: l → said tbl find f (p ++ q) = some none) ∨
          ∃ q e, q <+: l ∧ said tbl find f (p ++ q) = some (some e) ∧ change cur e = none ∧
            ∀ q', q' ≠ [] → q' <+: q → q' ≠ q → said tbl find f (p ++ q') = some none)
    | .change e' => ∃ q e, q <+: l ∧ said tbl find f (p ++ q) = some (some e) ∧ change cur e = some e' ∧
            ∀ q', q' ≠ [] → q' <+: q → q' ≠ q → said tbl find f (p ++ q') = some none := by
  induction l with
  | nil =>
    intro p cr m h
    simp only [pass, List.append_nil]
    refine ⟨by unfold parse; rw [h]; rfl, .inl fun q hq hp => ?_⟩
    exact absurd (List.prefix_nil.1 hp) hq
  | cons c l ih =>
    intro p cr m h
    have hfc := feed_append (sink tbl) find f p [c] false (Model.HtmlTok.init (.ok init))
    rw [h, Option.bind_some] at hfc
    rw [pass]
    cases hc : feed (sink tbl) find f cr [c] m with
    | none =>
      rw [hc] at hfc
      refine ⟨[c], by simp, by unfold parse; rw [hfc]; rfl⟩
    | some x =>
      obtain ⟨cr', m'⟩ := x
      rw [hc] at hfc
      have hsaid : said tbl find f (p ++ [c]) = firstOf (metas m'.sink) := by
        unfold said parse; rw [hfc]; rfl
      simp only [if_true]
      cases hd : firstOf (metas m'.sink) with
      | none => exact ⟨[c], by simp, hsaid.trans hd⟩
      | some o =>
        rw [hd] at hsaid
        have one : ∀ q' : List Nat, q' ≠ [] → q' <+: [c] → q' ≠ [c] → said tbl find f (p ++ q') = some none := by
          intro q' h1 h2 h3
          obtain ⟨t, ht⟩ := h2
          cases q' with
          | nil => exact absurd rfl h1
          | cons d q' =>
            simp only [List.cons_append, List.cons.injEq, List.append_eq_nil_iff] at ht
            obtain ⟨rfl, rfl, _⟩ := ht
            exact absurd rfl h3
        cases o with
        | some e =>
          simp only
          cases hch : change cur e with
          | some e' => exact ⟨[c], e, by simp, hsaid, hch, one⟩
          | none =>
            simp only
            rw [pass_sure (by decide)]
            have hall := feed_append (sink tbl) find f (p ++ [c]) l false (Model.HtmlTok.init (.ok init))
            rw [hfc, Option.bind_some] at hall
            simp only [List.append_assoc, List.singleton_append] at hall
            cases hl : feed (sink tbl) find f cr' l m' with
            | none =>
              rw [hl] at hall
              exact ⟨c :: l, by simp, by unfold parse; rw [hall]; rfl⟩
            | some y =>
              rw [hl] at hall
              exact ⟨by unfold parse; rw [hall]; rfl, .inr ⟨[c], e, by simp, hsaid, hch, one⟩⟩
        | none =>
          simp only
          have key := ih (p ++ [c]) cr' m' hfc
          have step : ∀ q : List Nat, p ++ [c] ++ q = p ++ c :: q := by intro q; simp
          have lift : ∀ q : List Nat, (∀ q', q' ≠ [] → q' <+: q → q' ≠ q → said tbl find f (p ++ [c] ++ q') = some none) →
              ∀ q', q' ≠ [] → q' <+: c :: q → q' ≠ c :: q → said tbl find f (p ++ q') = some none := by
            intro q hq q' h1 h2 h3
            cases q' with
            | nil => exact absurd rfl h1
            | cons d q' =>
              rw [List.cons_prefix_cons] at h2
              obtain ⟨rfl, h2⟩ := h2
              by_cases h4 : q' = []
              · subst h4; exact hsaid
              · rw [← step]; exact hq q' h4 h2 (fun e => h3 (by rw [e]))
          revert key
          cases pass tbl find f cur .tentative cr' l m' with
          | endless => rintro ⟨q, h1, h2⟩; exact ⟨c :: q, by simpa using h1, by rw [← step]; exact h2⟩
          | undefined => rintro ⟨q, h1, h2⟩; exact ⟨c :: q, by simpa using h1, by rw [← step]; exact h2⟩
          | change e' =>
            rintro ⟨q, e, h1, h2, h3, h4⟩
            exact ⟨c :: q, e, by simpa using h1, by rw [← step]; exact h2, h3, lift q h4⟩
          | done r =>
            rintro ⟨h1, h2⟩
            refine ⟨by rw [← step]; exact h1, ?_⟩
            rcases h2 with h2 | ⟨q, e, g1, g2, g3, g4⟩
            · left
              intro q h3 h4
              cases q with
              | nil => exact absurd rfl h3
              | cons d q =>
                rw [List.cons_prefix_cons] at h4
                obtain ⟨rfl, h4⟩ := h4
                by_cases h5 : q = []
                · subst h5; exact hsaid
                · rw [← step]; exact h2 q h5 h4
            · exact .inr ⟨c :: q, e, by simpa using g1, by rw [← step]; exact g2, g3, lift q g4⟩

theorem said_nil (tbl : List Nat → Bool) (find : Find) (f : Nat) : said tbl find f [] = some none := rfl

end Verif.Proof.HtmlBytes
