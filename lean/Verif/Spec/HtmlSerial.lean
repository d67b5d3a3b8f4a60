import Verif.Spec.HtmlAtom
import Verif.Model.HtmlSerial
/-
"Serializing HTML fragments" of the HTML standard (section 13.3), over trees of scalar value strings. There are no template
contents, shadow roots or `is` values in such a tree, and scripting is disabled. The edition is the one before "<" and ">"
were escaped in attribute values.
-/
namespace Verif.Spec.HtmlSerial
open Verif.Model.Unicode Verif.Model.HtmlAtom Verif.Props.Unicode Verif.Spec.HtmlAtom

/-- An attribute: namespace (empty for none), prefix, local name and value. -/
structure Attr where
  ns : List Nat
  pre : List Nat
  name : List Nat
  val : List Nat

/-- What a node is. -/
inductive Data
  | element (ns pre name : List Nat) (attrs : List Attr)
  | text (s : List Nat)
  | pi (target data : List Nat)
  | comment (s : List Nat)
  | doctype (name : List Nat)
  | other

inductive Dom
  | mk (d : Data) (kids : List Dom)

def Dom.data : Dom → Data
  | .mk d _ => d

def Dom.kids : Dom → List Dom
  | .mk _ ks => ks

def htmlNs : List Nat := codes "http://www.w3.org/1999/xhtml"
def mathNs : List Nat := codes "http://www.w3.org/1998/Math/MathML"
def svgNs : List Nat := codes "http://www.w3.org/2000/svg"
def xlinkNs : List Nat := codes "http://www.w3.org/1999/xlink"
def xmlNs : List Nat := codes "http://www.w3.org/XML/1998/namespace"
def xmlnsNs : List Nat := codes "http://www.w3.org/2000/xmlns/"

/-- Void elements, and the others that serialize as void. -/
def voidNames : List (List Nat) := (["area", "base", "br", "col", "embed", "hr", "img", "input", "link", "meta", "param",
  "source", "track", "wbr", "basefont", "bgsound", "frame", "keygen"] : List String).map codes

/-- Elements whose text is written as it is. -/
def rawNames : List (List Nat) :=
  (["style", "script", "xmp", "iframe", "noembed", "noframes", "plaintext"] : List String).map codes

/-- An HTML element with one of these names. -/
def HtmlElement (l : List (List Nat)) : Data → Prop
  | .element ns _ name _ => ns = htmlNs ∧ name ∈ l
  | _ => False

instance (l : List (List Nat)) (d : Data) : Decidable (HtmlElement l d) := by
  cases d <;> unfold HtmlElement <;> infer_instance

/-- Prefix, colon and local name; the local name alone without a prefix. -/
def qualified (pre name : List Nat) : List Nat := if pre = [] then name else pre ++ codes ":" ++ name

def tagName (ns pre name : List Nat) : List Nat :=
  if ns = htmlNs ∨ ns = mathNs ∨ ns = svgNs then name else qualified pre name

/-- An attribute's serialized name. -/
def attrName (a : Attr) : List Nat :=
  if a.ns = [] then a.name
  else if a.ns = xmlNs then codes "xml:" ++ a.name
  else if a.ns = xmlnsNs ∧ a.name = codes "xmlns" then codes "xmlns"
  else if a.ns = xmlnsNs then codes "xmlns:" ++ a.name
  else if a.ns = xlinkNs then codes "xlink:" ++ a.name
  else qualified a.pre a.name

/-- Escaping a string, in attribute mode or not. -/
def escape (attr : Bool) (s : List Nat) : List Nat :=
  s.flatMap fun c =>
    if c = 0x26 then codes "&amp;"
    else if c = 0xA0 then codes "&nbsp;"
    else if c = 0x22 ∧ attr = true then codes "&quot;"
    else if c = 0x3C ∧ attr = false then codes "&lt;"
    else if c = 0x3E ∧ attr = false then codes "&gt;"
    else [c]

def attrsOut (l : List Attr) : List Nat :=
  l.flatMap fun a => codes " " ++ attrName a ++ codes "=\"" ++ escape true a.val ++ codes "\""

mutual
/-- What is written for a node below `parent`. -/
def write (parent : Data) : Dom → List Nat
  | .mk (.element ns pre name attrs) ks =>
    codes "<" ++ tagName ns pre name ++ attrsOut attrs ++ codes ">" ++
      (if HtmlElement voidNames (.element ns pre name attrs) then []
       else writes (.element ns pre name attrs) ks ++ codes "</" ++ tagName ns pre name ++ codes ">")
  | .mk (.text s) _ => if HtmlElement rawNames parent then s else escape false s
  | .mk (.comment s) _ => codes "<!--" ++ s ++ codes "-->"
  | .mk (.pi target data) _ => codes "<?" ++ target ++ codes " " ++ data ++ codes ">"
  | .mk (.doctype name) _ => codes "<!DOCTYPE " ++ name ++ codes ">"
  | .mk .other _ => []

def writes (parent : Data) : List Dom → List Nat
  | [] => []
  | n :: r => write parent n ++ writes parent r
end

/-- The HTML fragment serialization algorithm. -/
def serialize (n : Dom) : List Nat := if HtmlElement voidNames n.data then [] else writes n.data n.kids

/-! Trees of the library and what they show. -/

/-- An atom made by the library's constructors for the string `s`. -/
def Shown (ct : CharT) (k : Kind) (a : Atom) (s : List Nat) : Prop :=
  Made ct k a ∧ (∀ c ∈ s, IsScalar c) ∧ toStr ct k a = some (formOf ct s)

/-- A string of the tree. -/
def Str (ct : CharT) (u s : List Nat) : Prop := (∀ c ∈ s, IsScalar c) ∧ u = formOf ct s

def ShowsAttr (ct : CharT) (a : Model.HtmlSerial.Attr) (b : Attr) : Prop :=
  Shown ct .ns a.ns b.ns ∧ Str ct a.pre b.pre ∧ Shown ct .attr a.name b.name ∧ Str ct a.val b.val

def ShowsAttrs (ct : CharT) : List Model.HtmlSerial.Attr → List Attr → Prop
  | [], [] => True
  | a :: r, b :: s => ShowsAttr ct a b ∧ ShowsAttrs ct r s
  | _, _ => False

def ShowsData (ct : CharT) : Model.HtmlSerial.Data → Data → Prop
  | .element e, .element ns pre name attrs =>
    Shown ct .ns e.ns ns ∧ Str ct e.pre pre ∧ Shown ct .tag e.name name ∧ ShowsAttrs ct e.attrs attrs
  | .text u, .text s => Str ct u s
  | .pi u v, .pi s t => Str ct u s ∧ Str ct v t
  | .comment u, .comment s => Str ct u s
  | .doctype u, .doctype s => Str ct u s
  | .document, .other => True
  | .fragment, .other => True
  | _, _ => False

mutual
/-- The library's tree shows the tree of the standard. -/
def Shows (ct : CharT) : Model.HtmlSerial.Node → Dom → Prop
  | .mk d ks, .mk d' ks' => ShowsData ct d d' ∧ ShowsAll ct ks ks'

def ShowsAll (ct : CharT) : List Model.HtmlSerial.Node → List Dom → Prop
  | [], [] => True
  | n :: r, m :: s => Shows ct n m ∧ ShowsAll ct r s
  | _, _ => False
end

/-! Trees that the code writes as the standard says. -/

def Data.isText : Data → Prop
  | .text _ => True
  | _ => False

/-- The attribute's namespace is none, or one of XML, XMLNS, XLink, HTML, MathML, SVG, or the attribute has no prefix. -/
def KnownNs (a : Attr) : Prop := a.pre = [] ∨ a.ns ∈ [[], xmlNs, xmlnsNs, xlinkNs, htmlNs, mathNs, svgNs]

mutual
/-- No void element has children; no attribute is of a foreign namespace. -/
def Plain : Dom → Prop
  | .mk (.element ns pre name attrs) ks =>
    (HtmlElement voidNames (.element ns pre name attrs) → ks = []) ∧ (∀ a ∈ attrs, KnownNs a) ∧ Plains ks
  | .mk _ _ => True

def Plains : List Dom → Prop
  | [] => True
  | n :: r => Plain n ∧ Plains r
end

/-! Reading back. -/

/-- `Decodes u s`: replacing the five character references in `u` gives `s`; no other `&` occurs in `u`. -/
inductive Decodes : List Nat → List Nat → Prop
  | nil : Decodes [] []
  | char (c : Nat) (u s : List Nat) : c ≠ 0x26 → Decodes u s → Decodes (c :: u) (c :: s)
  | amp (u s : List Nat) : Decodes u s → Decodes (codes "&amp;" ++ u) (0x26 :: s)
  | nbsp (u s : List Nat) : Decodes u s → Decodes (codes "&nbsp;" ++ u) (0xA0 :: s)
  | quot (u s : List Nat) : Decodes u s → Decodes (codes "&quot;" ++ u) (0x22 :: s)
  | lt (u s : List Nat) : Decodes u s → Decodes (codes "&lt;" ++ u) (0x3C :: s)
  | gt (u s : List Nat) : Decodes u s → Decodes (codes "&gt;" ++ u) (0x3E :: s)

/-- `w` occurs in `s`. -/
def Occurs (w s : List Nat) : Prop := ∃ a b, s = a ++ w ++ b

/-- A tag name: a letter, then neither space nor `>`. -/
def TagName (s : List Nat) : Prop :=
  (∃ c r, s = c :: r ∧ ((65 ≤ c ∧ c ≤ 90) ∨ (97 ≤ c ∧ c ≤ 122))) ∧ 0x20 ∉ s ∧ 0x3E ∉ s

/-- An attribute without namespace whose name has no `=`. The value is any string. -/
def ReadableAttr (a : Attr) : Prop := a.ns = [] ∧ a.pre = [] ∧ 0x3D ∉ a.name

mutual
/-- Nodes that can be told apart in the output: HTML elements; void elements without children; comments without `-->`;
processing instructions and document types without `>`. Any text. -/
def Readable (parent : Data) : Dom → Prop
  | .mk (.element ns pre name attrs) ks =>
    ns = htmlNs ∧ pre = [] ∧ TagName name ∧ (∀ a ∈ attrs, ReadableAttr a) ∧
      (name ∈ voidNames → ks = []) ∧ Readables (.element ns pre name attrs) ks
  | .mk (.text s) ks => ks = [] ∧ s ≠ [] ∧ (HtmlElement rawNames parent → ¬ Occurs (codes "</") s)
  | .mk (.comment s) ks => ks = [] ∧ ¬ Occurs (codes "-->") s
  | .mk (.pi target data) ks => ks = [] ∧ 0x20 ∉ target ∧ 0x3E ∉ data
  | .mk (.doctype name) ks => ks = [] ∧ 0x3E ∉ name
  | .mk .other _ => False

/-- Children: no two texts in a row; elements with raw text have but one text. -/
def Readables (parent : Data) : List Dom → Prop
  | [] => True
  | n :: r => Readable parent n ∧ Readables parent r ∧ (n.data.isText → ∀ m ∈ r.head?, ¬ m.data.isText) ∧
      (HtmlElement rawNames parent → n.data.isText ∧ r = [])
end

end Verif.Spec.HtmlSerial
