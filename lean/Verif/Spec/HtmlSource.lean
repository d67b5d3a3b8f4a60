import Verif.Spec.HtmlSerial
import Verif.Spec.HtmlWatch
/-
Where the elements and the attributes of a document come from.
-/
namespace Verif.Spec.HtmlSource
open Verif.Spec.HtmlAtom (codes)

/-- A small letter of a capital one. -/
def small (c : Nat) : Nat := if 0x41 ≤ c ∧ c ≤ 0x5A then c + 0x20 else c

/-- The attribute name `m` of a document comes from `n` in a tag: it is the same, or differs in capital letters only (as
`definitionURL` and the attributes of SVG do), or lacks one of the prefixes that foreign attributes have. -/
def Stem (n m : List Nat) : Prop :=
  n = m ∨ n = m.map small ∨ n = codes "xlink:" ++ m ∨ n = codes "xml:" ++ m ∨ n = codes "xmlns:" ++ m

instance (n m : List Nat) : Decidable (Stem n m) := by unfold Stem; infer_instance

/-- The attributes of the start tags among tokens: names and values. -/
def given : List Model.HtmlTok.Tok → List (List Nat × List Nat)
  | [] => []
  | .startTag _ a _ :: l => a ++ given l
  | _ :: l => given l

/-- The elements that the standard inserts where a start tag is missing; a `br` stands for the end tag `</br>`. -/
def supplied : List (List Nat) := (["html", "head", "body", "p", "colgroup", "tbody", "tr", "br"] : List String).map codes

/-- The name of an element comes from the tags; an `image` is made an `img`. -/
def NameFrom (toks : List Model.HtmlTok.Tok) (name : List Nat) : Prop :=
  name ∈ supplied ∨ name ∈ HtmlWatch.starts toks ∨ name = codes "img" ∧ codes "image" ∈ HtmlWatch.starts toks

/-- If the node is an element, its name and its attributes come from the tags. -/
def FromTags (toks : List Model.HtmlTok.Tok) : HtmlSerial.Data → Prop
  | .element _ _ name attrs => NameFrom toks name ∧ ∀ a ∈ attrs, ∃ n, (n, a.val) ∈ given toks ∧ Stem n a.name
  | _ => True

end Verif.Spec.HtmlSource
