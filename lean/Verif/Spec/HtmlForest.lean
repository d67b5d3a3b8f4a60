import Verif.Spec.HtmlTree
/- What is a document, whatever it was parsed from. -/
namespace Verif.Spec.HtmlTree
open Verif.Spec.HtmlSerial (Dom Data htmlNs)
open Verif.Spec.HtmlAtom (codes)

mutual
/-- The trees below the root of a tree. -/
def below : Dom → List Dom
  | .mk _ ks => belowAll ks

def belowAll : List Dom → List Dom
  | [] => []
  | n :: r => n :: (below n ++ belowAll r)
end

def Comments (l : List Dom) : Prop := ∀ n ∈ l, ∃ t, n.data = .comment t

/-- A document: its root, and nothing else, is the document node; only elements have children; no text is empty; and the children of
the document are comments, at most one document type, and at most one element, which is an `html` element and behind the document
type. -/
structure IsDocument (D : Dom) : Prop where
  root : D.data = .other
  inner : ∀ n ∈ below D, n.data ≠ .other ∧ (n.kids ≠ [] → ∃ ns pre name attrs, n.data = .element ns pre name attrs) ∧
    ∀ t, n.data = .text t → t ≠ []
  kids : ∃ a t b e c, D.kids = a ++ t ++ b ++ e ++ c ∧ Comments a ∧ Comments b ∧ Comments c ∧
    (t = [] ∨ ∃ name, t = [.mk (.doctype name) []]) ∧ (e = [] ∨ ∃ attrs ks, e = [.mk (.element htmlNs [] (codes "html") attrs) ks])

end Verif.Spec.HtmlTree
