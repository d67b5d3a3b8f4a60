import Verif.Props.HtmlTree
import Verif.Proof.HtmlTreePlain
import Verif.Proof.HtmlTreeSafeText
/-
Property C109: what is left of it. `C109_statement` of Verif.Props.HtmlTree is false; here are the texts for which it holds.
-/
namespace Verif.Props.HtmlTree
open Verif.Model.HtmlTree Verif.Proof.HtmlTree Verif.Spec.HtmlTree Verif.Spec.HtmlTokBridge Verif.Spec.HtmlWatch
open Verif.Model.HtmlTok (Find)
open Verif.Spec.HtmlAtom (codes)
open Verif.Spec.HtmlSerial (Data htmlNs mathNs svgNs)
open Verif.Props.HtmlTok (noNames agree_none)
open Verif.Proof.HtmlTok (agree_find)
open Verif.Proof.HtmlTree.Safe (mem_ofName mem_starts)
open Verif.Proof.HtmlTree.Pure (Home home_holds i_good plain_nodes)

/-- An element of a document is an HTML element, and its attributes have neither namespace nor prefix. -/
def HtmlOnly : Data → Prop
  | .element ns _ _ attrs => ns = htmlNs ∧ ∀ a ∈ attrs, a.ns = [] ∧ a.pre = []
  | _ => True

theorem home_of {toks : List Model.HtmlTok.Tok} (h : ∀ n ∈ starts toks, n ∉ [codes "math", codes "svg"]) : ∀ t ∈ toks, Home t := by
  intro t ht
  cases t with
  | startTag n a f =>
    show (Tag.ofName n).mem [.math, .svg] = false
    by_contra hc
    exact h n (mem_starts ht) (mem_ofName (ks := [.math, .svg]) (by decide +kernel) (by simpa using hc))
  | _ => trivial

/-- C109 for the texts without start tags of `svg` and `math`: whatever else they hold, and whether or not the end is announced, all
elements are HTML elements with plain attributes; so the three demands of C109 are met. Missing are the texts with foreign content,
for which `C109_statement` is false. -/
theorem C109_partial (tbl : List Nat → Bool) (P : Nat → Prop) (find : Find) (hF : FindOk P find) (h10 : P 10) (l : List Nat)
    (hl : ∀ c ∈ l, P c) :
    (∃ r toks, (∀ f, 24 * l.length + 39 ≤ f → parse tbl find f l = some r ∧ tokens tbl find f l = some toks) ∧
      ((∀ n ∈ starts toks, n ∉ [codes "math", codes "svg"]) → ∀ s, r = .ok s →
        ∀ x ∈ nodes (document s.dom), HtmlOnly x ∧ HtmlAttrs x ∧ SvgName x ∧ SvgAttr x)) ∧
    ∃ r toks, (∀ f, 24 * l.length + 39 ≤ f → parseEof tbl find f l = some r ∧ tokensEof tbl find f l = some toks) ∧
      ((∀ n ∈ starts toks, n ∉ [codes "math", codes "svg"]) → ∀ s, r = .ok s →
        ∀ x ∈ nodes (document s.dom), HtmlOnly x ∧ HtmlAttrs x ∧ SvgName x ∧ SvgAttr x) := by
  have key : ∀ s : S, Walk.I Pure.goodD Pure.goodD Pure.H s → ∀ x ∈ nodes (document s.dom), HtmlOnly x ∧ HtmlAttrs x ∧ SvgName x ∧ SvgAttr x := by
    intro s h x hx
    have := plain_nodes (i_good h) x hx
    cases x with
    | element ns pre name attrs =>
      obtain ⟨rfl, ha⟩ := this
      have hne : ¬ htmlNs = svgNs := by decide +kernel
      exact ⟨⟨rfl, ha⟩, fun _ => ha, fun e => absurd e hne, fun e => absurd e hne⟩
    | _ => exact ⟨trivial, trivial, trivial, trivial⟩
  obtain ⟨r, toks, a1, a2⟩ := parse_holds (home_holds tbl) P find hF h10 l hl
  obtain ⟨r', toks', b1, b2⟩ := parseEof_holds (home_holds tbl) P find hF h10 l hl
  exact ⟨⟨r, toks, a1, fun h s e => key s (a2 (home_of h) s e)⟩, r', toks', b1, fun h s e => key s (b2 (home_of h) s e)⟩

/-- A text with misnested formatting elements, an end tag of `svg` and attributes that would be adjusted in foreign content: its
start tags are not those of foreign content, and it has a document with attributes. -/
example :
    (tokensEof (fun _ => false) noNames 3000 (codes "<p class=a><b xlink:href=c><p></b></svg><image src=d>")).map starts =
      some [codes "p", codes "b", codes "p", codes "image"] ∧
    (∀ n ∈ [codes "p", codes "b", codes "p", codes "image"], n ∉ [codes "math", codes "svg"]) ∧
    test (fun D => (nodes D).any fun x => match x with | .element _ _ _ a => !a.isEmpty | _ => false)
      (parseEof (fun _ => false) noNames 3000 (codes "<p class=a><b xlink:href=c><p></b></svg><image src=d>")) = true := by
  refine ⟨by decide +kernel, by decide +kernel, ?_⟩
  unfold parseEof; rw [sink_strict]; decide +kernel

end Verif.Props.HtmlTree
