import Verif.Props.HtmlTree
import Verif.Proof.HtmlTreeView
/- Property C110: what every document is that comes from a text. -/
namespace Verif.Props.HtmlTree
open Verif.Model.HtmlTree Verif.Proof.HtmlTree Verif.Spec.HtmlTree Verif.Spec.HtmlTokBridge
open Verif.Model.HtmlTok (Find)
open Verif.Spec.HtmlAtom (codes)
open Verif.Props.HtmlTok (noNames)
open Verif.Proof.HtmlTree.Forest (shape_holds heads_of is_document view_whole)

/-- C110. Whatever the text is, and whether or not its end is announced: if parsing it gives a result, the result is a finite tree, of
which `document` leaves nothing out, and it is a document. -/
theorem C110 (tbl : List Nat → Bool) (P : Nat → Prop) (find : Find) (hF : FindOk P find) (h10 : P 10) (l : List Nat)
    (hl : ∀ c ∈ l, P c) (f : Nat) (hf : 24 * l.length + 39 ≤ f) (s : S)
    (h : parse tbl find f l = some (.ok s) ∨ parseEof tbl find f l = some (.ok s)) :
    (∀ k, view s.dom (s.dom.length + k) 0 = document s.dom) ∧ IsDocument (document s.dom) := by
  have key : Forest.Heads s.dom := by
    rcases h with h | h
    · obtain ⟨r, toks, a1, a2⟩ := parse_holds (shape_holds tbl) P find hF h10 l hl
      exact heads_of (a2 (fun _ _ => trivial) s (Option.some.inj ((a1 f hf).1.symm.trans h)))
    · obtain ⟨r, toks, a1, a2⟩ := parseEof_holds (shape_holds tbl) P find hF h10 l hl
      exact heads_of (a2 (fun _ _ => trivial) s (Option.some.inj ((a1 f hf).1.symm.trans h)))
  exact ⟨view_whole key.1, is_document key⟩

/-- A text with misnested formatting elements, foster parenting, comments at all levels and foreign content has a result. -/
example : test (fun D => decide (D.kids.length = 4))
    (parseEof (fun _ => false) noNames 3000 (codes "<!--a--><!doctype html><b><p>x</b><table>y<svg></table></html><!--b-->")) = true := by
  unfold parseEof; rw [sink_strict]; decide +kernel

end Verif.Props.HtmlTree
