import Verif.Spec.HtmlRoundTrip
/-
Documents that need no repair: what is nested in what is as the standard's content model has it, so that no tag closes, opens or
moves another element. There are no elements with raw text, no foreign elements, no templates and no form controls with modes of
their own (`select`, `textarea`, `button`).
-/
namespace Verif.Spec.HtmlDoc
open Verif.Spec.HtmlSerial (Dom Data Attr htmlNs)
open Verif.Spec.HtmlRoundTrip (TagName PlainAttr PlainComment NameChar)
open Verif.Spec.HtmlAtom (codes)

def blocks : List (List Nat) := (["address", "article", "aside", "blockquote", "center", "details", "dialog", "dir", "div", "dl",
  "fieldset", "figcaption", "figure", "footer", "header", "hgroup", "main", "menu", "nav", "ol", "p", "section", "summary",
  "ul"] : List String).map codes

def headings : List (List Nat) := (["h1", "h2", "h3", "h4", "h5", "h6"] : List String).map codes

def formatting : List (List Nat) := (["b", "big", "code", "em", "font", "i", "s", "small", "strike", "strong", "tt",
  "u"] : List String).map codes

/-- Elements that begin a new scope. -/
def scopes : List (List Nat) := (["applet", "marquee", "object"] : List String).map codes

def voids : List (List Nat) := (["area", "base", "basefont", "bgsound", "br", "embed", "hr", "img", "input", "keygen", "link", "meta",
  "param", "source", "track", "wbr"] : List String).map codes

/-- Void elements of a `head`. -/
def headVoids : List (List Nat) := (["base", "basefont", "bgsound", "link", "meta"] : List String).map codes

def sections : List (List Nat) := (["tbody", "thead", "tfoot"] : List String).map codes

def cells : List (List Nat) := (["td", "th"] : List String).map codes

/-- Names for which the tree construction has rules of their own, or that stand for void elements. -/
def treated : List (List Nat) := blocks ++ headings ++ formatting ++ scopes ++ voids ++
  (["a", "nobr", "li", "dd", "dt", "form", "table", "caption", "colgroup", "col", "tbody", "thead", "tfoot", "tr", "td", "th",
    "html", "head", "body", "frameset", "frame", "noframes", "style", "script", "title", "template", "textarea", "xmp", "iframe",
    "noembed", "plaintext", "pre", "listing", "button", "select", "option", "optgroup", "rb", "rp", "rt", "rtc", "math", "svg",
    "image"] : List String).map codes

/-- Where an element is: among flow content, or in a part of a table. -/
inductive Where | flow | table | group | sect | row
deriving DecidableEq

/-- The name of the parent, and whether there is a `p`, `a`, `nobr` or `form` around within the scope. -/
structure Ctx where
  at' : Where
  parent : List Nat
  inP : Bool
  inA : Bool
  inNobr : Bool
  inForm : Bool
deriving DecidableEq

/-- What may be a child here. -/
def Allowed (c : Ctx) (name : List Nat) : Prop :=
  match c.at' with
  | .flow =>
    (name ∈ blocks ∧ c.inP = false) ∨
    (name ∈ headings ∧ c.inP = false ∧ c.parent ∉ headings) ∨
    name ∈ formatting ∨
    (name = codes "a" ∧ c.inA = false) ∨
    (name = codes "nobr" ∧ c.inNobr = false) ∨
    name ∈ scopes ∨
    (name = codes "li" ∧ c.inP = false ∧ c.parent ≠ codes "li") ∨
    (name ∈ [codes "dd", codes "dt"] ∧ c.inP = false ∧ c.parent = codes "dl") ∨
    (name = codes "form" ∧ c.inP = false ∧ c.inForm = false) ∨
    (name = codes "table" ∧ c.inP = false) ∨
    name ∉ treated
  | .table => name = codes "caption" ∨ name = codes "colgroup" ∨ name ∈ sections
  | .group => False
  | .sect => name = codes "tr"
  | .row => name ∈ cells

/-- Void elements. -/
def AllowedVoid (c : Ctx) (name : List Nat) : Prop :=
  match c.at' with
  | .flow => name ∈ voids ∧ (name = codes "hr" → c.inP = false)
  | .group => name = codes "col"
  | _ => False

/-- The context in an element. -/
def inside (c : Ctx) (name : List Nat) : Ctx :=
  if name ∈ codes "caption" :: cells then ⟨.flow, name, false, false, false, c.inForm⟩
  else if name = codes "table" then ⟨.table, name, false, false, false, c.inForm⟩
  else if name = codes "colgroup" then ⟨.group, name, false, false, false, c.inForm⟩
  else if name ∈ sections then ⟨.sect, name, false, false, false, c.inForm⟩
  else if name = codes "tr" then ⟨.row, name, false, false, false, c.inForm⟩
  else if name ∈ scopes then ⟨.flow, name, false, false, false, c.inForm⟩
  else ⟨.flow, name, c.inP || name == codes "p", c.inA || name == codes "a", c.inNobr || name == codes "nobr",
    c.inForm || name == codes "form"⟩

/-- Attributes without namespace and prefix, each once. -/
def Attrs (l : List Attr) : Prop := (∀ a ∈ l, PlainAttr a ∧ a.pre = []) ∧ (l.map (·.name)).Nodup

def isText : Data → Bool
  | .text _ => true
  | _ => false

mutual
/-- A tree that may stand here. -/
def Fits (c : Ctx) : Dom → Prop
  | .mk (.element ns pre name attrs) ks => ns = htmlNs ∧ pre = [] ∧ TagName name ∧ Attrs attrs ∧
      ((AllowedVoid c name ∧ ks = []) ∨ (Allowed c name ∧ FitsAll (inside c name) false ks))
  | .mk (.text s) ks => c.at' = .flow ∧ s ≠ [] ∧ 0 ∉ s ∧ 0xD ∉ s ∧ ks = []
  | .mk (.comment s) ks => PlainComment s ∧ ks = []
  | _ => False

/-- Trees that may stand here, no two texts side by side; the flag says whether there is a text in front. -/
def FitsAll (c : Ctx) : Bool → List Dom → Prop
  | _, [] => True
  | t, n :: r => Fits c n ∧ ¬ (t = true ∧ isText n.data = true) ∧ FitsAll c (isText n.data) r
end

/-- The contents of a `head`: void elements, comments and white space. -/
def HeadFits : Dom → Prop
  | .mk (.element ns pre name attrs) ks => ns = htmlNs ∧ pre = [] ∧ name ∈ headVoids ∧ Attrs attrs ∧ ks = []
  | .mk (.text s) ks => s ≠ [] ∧ (∀ c ∈ s, c ∈ [0x9, 0xA, 0xC, 0x20]) ∧ ks = []
  | .mk (.comment s) ks => PlainComment s ∧ ks = []
  | _ => False

def HeadFitsAll : Bool → List Dom → Prop
  | _, [] => True
  | t, n :: r => HeadFits n ∧ ¬ (t = true ∧ isText n.data = true) ∧ HeadFitsAll (isText n.data) r

/-- The context of a body. -/
def bodyCtx : Ctx := ⟨.flow, codes "body", false, false, false, false⟩

def el (name : String) (attrs : List Attr) (ks : List Dom) : Dom := .mk (.element htmlNs [] (codes name) attrs) ks

/-- A document: a document type or none, `html`, `head` and `body`. -/
def Document (D : Dom) : Prop :=
  ∃ (dt : List Dom) (ha : List Attr) (hda : List Attr) (hk : List Dom) (ba : List Attr) (bk : List Dom),
    D = .mk .other (dt ++ [el "html" ha [el "head" hda hk, el "body" ba bk]]) ∧
    (dt = [] ∨ ∃ name, dt = [.mk (.doctype name) []] ∧ name ≠ [] ∧ ∀ c ∈ name, NameChar c) ∧
    Attrs ha ∧ Attrs hda ∧ Attrs ba ∧ HeadFitsAll false hk ∧ FitsAll bodyCtx false bk

end Verif.Spec.HtmlDoc
