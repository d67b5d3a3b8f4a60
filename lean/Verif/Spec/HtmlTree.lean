import Verif.Spec.HtmlSerial
import Verif.Model.HtmlTree
/-
What can be read from the tree that the parser has made, and the shape the standard gives to documents.
-/
namespace Verif.Spec.HtmlTree
open Verif.Model.HtmlTree (Kind Ns ANs At kidsOf kindOf)
open Verif.Spec.HtmlSerial (Dom Data Attr htmlNs mathNs svgNs xlinkNs xmlNs xmlnsNs)
open Verif.Spec.HtmlAtom (codes)

def nsName : Ns → List Nat
  | .html => htmlNs
  | .mathml => mathNs
  | .svg => svgNs

def attrNs : ANs → List Nat
  | .none => []
  | .xlink => xlinkNs
  | .xml => xmlNs
  | .xmlns => xmlnsNs

def attr (a : At) : Attr := ⟨attrNs a.ns, a.pre, a.name, a.val⟩

/-- What a node of the parser's tree is. -/
def data : Kind → Data
  | .document => .other
  | .doctype name _ _ => .doctype name
  | .elem ns tag attrs => .element (nsName ns) [] tag.name (attrs.map attr)
  | .text s => .text s
  | .comment s => .comment s

/-- The tree below a node, down to a depth. -/
def view (d : Model.HtmlTree.Dom) : Nat → Nat → Dom
  | 0, x => .mk (((kindOf d x).map data).getD .other) []
  | f + 1, x => .mk (((kindOf d x).map data).getD .other) ((kidsOf d x).map (view d f))

/-- The document. No way down in a tree is longer than the number of its nodes. -/
def document (d : Model.HtmlTree.Dom) : Dom := view d d.length 0

/-- The names of the elements among some nodes; those of foreign elements are not names of the standard's. -/
def elementNames (l : List Dom) : List (Option (List Nat)) :=
  l.filterMap fun n => match n.data with
    | .element ns _ name _ => some (if ns = htmlNs then some name else none)
    | _ => none

/-- The shape of a parsed document: its only element is an `html` element; the elements in that are a `head` and a `body` or a
`frameset` behind it. -/
def Shaped (D : Dom) : Prop :=
  ∃ a attrs ks b, D.kids = a ++ .mk (.element htmlNs [] (codes "html") attrs) ks :: b ∧
    elementNames a = [] ∧ elementNames b = [] ∧
    (elementNames ks = [some (codes "head"), some (codes "body")] ∨ elementNames ks = [some (codes "head"), some (codes "frameset")])

/-- The same, except that `noframes` elements may follow the `frameset`: the standard puts those that come behind the frameset into the
`html` element, too ("after frameset" and "after after frameset" process their start tags using the rules for "in head"). -/
def ShapedFrames (D : Dom) : Prop :=
  ∃ a attrs ks b, D.kids = a ++ .mk (.element htmlNs [] (codes "html") attrs) ks :: b ∧
    elementNames a = [] ∧ elementNames b = [] ∧
    (elementNames ks = [some (codes "head"), some (codes "body")] ∨
      ∃ n, elementNames ks = some (codes "head") :: some (codes "frameset") :: List.replicate n (some (codes "noframes")))

/-- A decision of `Shaped`. -/
def shaped (D : Dom) : Bool :=
  elementNames D.kids == [some (codes "html")] &&
    D.kids.all fun n => match n.data with
      | .element _ _ _ _ => elementNames n.kids == [some (codes "head"), some (codes "body")] ||
          elementNames n.kids == [some (codes "head"), some (codes "frameset")]
      | _ => true

theorem elementNames_append (a b : List Dom) : elementNames (a ++ b) = elementNames a ++ elementNames b := List.filterMap_append

theorem shaped_of (D : Dom) (h : Shaped D) : shaped D = true := by
  obtain ⟨a, attrs, ks, b, h1, h2, h3, h4⟩ := h
  unfold shaped
  rw [h1, elementNames_append, h2, show ∀ x l, elementNames (x :: l) = elementNames [x] ++ elementNames l from
    fun x l => elementNames_append [x] l, h3]
  simp only [Bool.and_eq_true]
  constructor
  · show ([] ++ ([if htmlNs = htmlNs then some (codes "html") else none] ++ []) == _) = true
    rw [if_pos rfl]; decide +kernel
  · rw [List.all_append, List.all_cons]
    have no : ∀ l : List Dom, elementNames l = [] → (l.all fun n => match n.data with
      | .element _ _ _ _ => elementNames n.kids == [some (codes "head"), some (codes "body")] ||
          elementNames n.kids == [some (codes "head"), some (codes "frameset")]
      | _ => true) = true := by
      intro l hl
      rw [List.all_eq_true]
      intro x hx
      have := (List.filterMap_eq_nil_iff.mp hl) x hx
      cases hd : x.data <;> simp_all
    rw [no a h2, no b h3]
    simp only [Bool.true_and, Bool.and_true]
    show (elementNames ks == _ || elementNames ks == _) = true
    rcases h4 with h | h <;> rw [h] <;> decide +kernel

mutual
/-- All the nodes of a tree. -/
def nodes : Dom → List Data
  | .mk d ks => d :: nodesAll ks

def nodesAll : List Dom → List Data
  | [] => []
  | n :: r => nodes n ++ nodesAll r
end

/-- The names of SVG elements that have capital letters (13.2.6.5). -/
def svgNames : List (List Nat) := (["altGlyph", "altGlyphDef", "altGlyphItem", "animateColor", "animateMotion", "animateTransform",
  "clipPath", "feBlend", "feColorMatrix", "feComponentTransfer", "feComposite", "feConvolveMatrix", "feDiffuseLighting",
  "feDisplacementMap", "feDistantLight", "feDropShadow", "feFlood", "feFuncA", "feFuncB", "feFuncG", "feFuncR", "feGaussianBlur",
  "feImage", "feMerge", "feMergeNode", "feMorphology", "feOffset", "fePointLight", "feSpecularLighting", "feSpotLight", "feTile",
  "feTurbulence", "foreignObject", "glyphRef", "linearGradient", "radialGradient", "textPath"] : List String).map codes

def small (s : List Nat) : List Nat := s.map fun c => if 0x41 ≤ c ∧ c ≤ 0x5A then c + 0x20 else c

/-- The attributes of HTML elements have neither namespace nor prefix. -/
def HtmlAttrs : Data → Prop
  | .element ns _ _ attrs => ns = htmlNs → ∀ a ∈ attrs, a.ns = [] ∧ a.pre = []
  | _ => True

/-- An SVG element is not called by the small letters of a name that has capital ones. -/
def SvgName : Data → Prop
  | .element ns _ name _ => ns = svgNs → ∀ n ∈ svgNames, name ≠ small n
  | _ => True

/-- The attribute `viewBox` of SVG elements is not called `viewbox`. -/
def SvgAttr : Data → Prop
  | .element ns _ _ attrs => ns = svgNs → ∀ a ∈ attrs, a.name ≠ codes "viewbox"
  | _ => True

instance (d : Data) : Decidable (HtmlAttrs d) := by cases d <;> unfold HtmlAttrs <;> infer_instance
instance (d : Data) : Decidable (SvgName d) := by cases d <;> unfold SvgName <;> infer_instance
instance (d : Data) : Decidable (SvgAttr d) := by cases d <;> unfold SvgAttr <;> infer_instance

end Verif.Spec.HtmlTree
