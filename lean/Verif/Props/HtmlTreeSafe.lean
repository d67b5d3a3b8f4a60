import Verif.Props.HtmlTree
import Verif.Proof.HtmlTreeSafeText
/-
Property C105: what is left of it. `C105_statement` of Verif.Props.HtmlTree is false; here are the texts for which it holds.
-/
namespace Verif.Props.HtmlTree
open Verif.Model.HtmlTree Verif.Proof.HtmlTree Verif.Spec.HtmlTree Verif.Spec.HtmlTokBridge Verif.Spec.HtmlWatch
open Verif.Model.HtmlTok (Find)
open Verif.Spec.HtmlAtom (codes)
open Verif.Props.HtmlTok (noNames agree_none)
open Verif.Proof.HtmlTok (agree_find)
open Verif.Proof.HtmlTree.Safe (Fine Left Sat emits_ok init_inv safe_keeps mem_ofName mem_starts Mild)

/-- The elements that are left out: C105 fails for the first three, and the proof does not cover the fourth. -/
def risky : List (List Nat) := [codes "button", codes "svg", codes "math", codes "template"]

/-- The formatting elements, for which the adoption agency algorithm runs. -/
def formatting : List (List Nat) :=
  [codes "a", codes "nobr", codes "b", codes "big", codes "code", codes "em", codes "font", codes "i", codes "s", codes "small",
   codes "strike", codes "strong", codes "tt", codes "u"]

/-- C105 for tokens: without the start tags `button`, `svg`, `math` and `template` nothing else can go wrong than that the adoption
agency algorithm uses an entry it has erased, or moves a node where it cannot go; and that needs a formatting element. Missing are
texts with formatting elements, and with the four elements; apart from `template`, `C105_statement` is false for them. -/
theorem C105_tokens_partial (tbl : List Nat → Bool) (l : List Tok)
    (h : ∀ t a f, .start t a f ∈ l → t.mem [.button, .svg, .math, .template] = false) (he : ∀ tok ∈ l.dropLast, tok ≠ .eof) :
    (∀ e, emits tbl l init = .error e → e = .stale ∨ e = .badMove) ∧
      ((∀ t a f, .start t a f ∈ l → t.mem (.a :: .nobr :: fmtTags) = false) → ∃ s, emits tbl l init = .ok s) := by
  have key : ∀ q : Prop, (∀ t a f, .start t a f ∈ l → t.mem (.a :: .nobr :: fmtTags) = true → q) →
      Sat q (fun _ => True) (emits tbl l init) := fun q hq =>
    emits_ok tbl l init init_inv (fun tok ht => by
      cases tok with
      | start t a f => exact ⟨h t a f ht, hq t a f ht⟩
      | _ => trivial) he
  have hf := C106_tokens tbl l
  constructor
  · intro e hr
    have := key True fun _ _ _ _ _ => trivial
    rw [hr] at this hf
    rcases this with h1 | ⟨-, h1⟩
    · exact absurd (by rw [h1]) hf
    · exact h1
  · intro hq
    have := key False fun t a f ht hm => by rw [hq t a f ht] at hm; cases hm
    cases hr : emits tbl l init with
    | ok s => exact ⟨s, rfl⟩
    | error e =>
      rw [hr] at this hf
      rcases this with h1 | ⟨h1, -⟩
      · exact absurd (by rw [h1]) hf
      · exact h1.elim

/-- A table in a paragraph, with a formatting element. -/
example : let l : List Tok := [.start (.k .p) [] false, .start (.k .b) [] false, .start (.k .table) [] false, .char 0x78, .fin (.k .b), .eof]
    (∀ t a f, Tok.start t a f ∈ l → t.mem [.button, .svg, .math, .template] = false) ∧ (∀ tok ∈ l.dropLast, tok ≠ .eof) := by
  constructor
  · intro t a f h
    simp at h
    rcases h with h | h | h <;> rw [h.1] <;> decide
  · decide

theorem inv_cases {toks : List Model.HtmlTok.Tok} {r : R S} (hf : r ≠ .error .fuel)
    (h1 : ∀ q : Prop, (∀ t ∈ toks, Mild q t) → ∃ I : S → Prop, Inv I (Left q) r) (hn : ∀ n ∈ starts toks, n ∉ risky) :
    (∀ e, r = .error e → e = .stale ∨ e = .badMove) ∧ ((∀ n ∈ starts toks, n ∉ formatting) → ∃ s, r = .ok s) := by
  have hm : ∀ q : Prop, (∀ n ∈ starts toks, n ∈ formatting → q) → ∀ t ∈ toks, Mild q t := by
    intro q hq t ht
    cases t with
    | startTag n a f =>
      refine ⟨?_, fun x => hq n (mem_starts ht) (mem_ofName (by decide +kernel) x)⟩
      by_contra hc
      exact hn n (mem_starts ht) (mem_ofName (ks := [.button, .svg, .math, .template]) (by decide +kernel) (by simpa using hc))
    | _ => trivial
  constructor
  · intro e hr
    obtain ⟨I, h2⟩ := h1 True (hm True fun _ _ _ => trivial)
    rw [hr] at h2 hf
    rcases h2 with h3 | ⟨-, h3⟩
    · exact absurd (by rw [h3]) hf
    · exact h3
  · intro hq
    obtain ⟨I, h2⟩ := h1 False (hm False fun n a b => hq n a b)
    cases r with
    | ok s => exact ⟨s, rfl⟩
    | error e =>
      rcases h2 with h3 | ⟨h3, -⟩
      · exact absurd (by rw [h3]) hf
      · exact h3.elim

/-- C105 for texts, and whatever the text is: unless one of its tags is a start tag of `button`, `svg`, `math` or `template`, nothing
but the adoption agency algorithm can go wrong, and without formatting elements that cannot either. The tags are those that the
tokenizer finds in the text. -/
theorem C105_partial (tbl : List Nat → Bool) (P : Nat → Prop) (find : Find) (hF : FindOk P find) (h10 : P 10) (l : List Nat)
    (hl : ∀ c ∈ l, P c) :
    ∃ r toks, (∀ f, 24 * l.length + 39 ≤ f → parse tbl find f l = some r ∧ tokens tbl find f l = some toks) ∧
      ((∀ n ∈ starts toks, n ∉ risky) →
        (∀ e, r = .error e → e = .stale ∨ e = .badMove) ∧ ((∀ n ∈ starts toks, n ∉ formatting) → ∃ s, r = .ok s)) := by
  obtain ⟨⟨r0, a1, a2⟩, -⟩ := C106_text tbl P find hF h10 l hl
  obtain ⟨r, toks, b1, -⟩ := parse_keeps (safe_keeps tbl True) P find hF h10 l hl
  have e0 : r = r0 := Option.some.inj ((b1 _ (Nat.le_refl _)).1.symm.trans (a1 _ (Nat.le_refl _)))
  refine ⟨r, toks, b1, inv_cases (e0 ▸ a2) fun q hq => ?_⟩
  obtain ⟨r', toks', c1, c2⟩ := parse_keeps (safe_keeps tbl q) P find hF h10 l hl
  have e1 : r = r' := Option.some.inj ((b1 _ (Nat.le_refl _)).1.symm.trans (c1 _ (Nat.le_refl _)).1)
  have e2 : toks = toks' := Option.some.inj ((b1 _ (Nat.le_refl _)).2.symm.trans (c1 _ (Nat.le_refl _)).2)
  subst e1 e2
  exact ⟨_, c2 hq⟩

/-- The same with the end announced, for texts that do not end with a carriage return; see `C105_twice`. -/
theorem C105_eof_partial (tbl : List Nat → Bool) (P : Nat → Prop) (find : Find) (hF : FindOk P find) (h10 : P 10) (l : List Nat)
    (hl : ∀ c ∈ l, P c) (hcr : l.getLast? ≠ some 13) :
    ∃ r toks, (∀ f, 24 * l.length + 39 ≤ f → parseEof tbl find f l = some r ∧ tokensEof tbl find f l = some toks) ∧
      ((∀ n ∈ starts toks, n ∉ risky) →
        (∀ e, r = .error e → e = .stale ∨ e = .badMove) ∧ ((∀ n ∈ starts toks, n ∉ formatting) → ∃ s, r = .ok s)) := by
  obtain ⟨-, r0, a1, a2⟩ := C106_text tbl P find hF h10 l hl
  obtain ⟨r, toks, b1, -⟩ := parseEof_keeps (safe_keeps tbl True) P find hF h10 l hl hcr
  have e0 : r = r0 := Option.some.inj ((b1 _ (Nat.le_refl _)).1.symm.trans (a1 _ (Nat.le_refl _)))
  refine ⟨r, toks, b1, inv_cases (e0 ▸ a2) fun q hq => ?_⟩
  obtain ⟨r', toks', c1, c2⟩ := parseEof_keeps (safe_keeps tbl q) P find hF h10 l hl hcr
  have e1 : r = r' := Option.some.inj ((b1 _ (Nat.le_refl _)).1.symm.trans (c1 _ (Nat.le_refl _)).1)
  have e2 : toks = toks' := Option.some.inj ((b1 _ (Nat.le_refl _)).2.symm.trans (c1 _ (Nat.le_refl _)).2)
  subst e1 e2
  exact ⟨_, c2 hq⟩

/-- If the text ends with a carriage return the end may be announced to the tree construction twice; the second time there is no
current element any more. -/
theorem C105_twice : shortEof "<!\r" = some (.inl .empty) := by
  unfold shortEof parseEof; rw [sink_strict]; decide +kernel

/-- The tags of a text with a table, a form and wrongly nested elements: none of them is risky, nor a formatting element. -/
example : (tokens (fun _ => false) noNames 1000 (codes "<table>x<tr><form><p></table></p><h1><LI></h2>&amp;")).map starts =
      some [codes "table", codes "tr", codes "form", codes "p", codes "h1", codes "li"] ∧
    (∀ n ∈ [codes "table", codes "tr", codes "form", codes "p", codes "h1", codes "li"], n ∉ risky ∧ n ∉ formatting) ∧
    ¬ ∃ n ∈ [codes "b", codes "p"], n ∈ risky := by
  refine ⟨by decide +kernel, by decide +kernel, by decide +kernel⟩

end Verif.Props.HtmlTree
