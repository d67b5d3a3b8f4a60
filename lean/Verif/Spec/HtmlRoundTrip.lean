import Verif.Spec.HtmlSerial
import Verif.Spec.HtmlTokBridge
/-
The tokens a tree should come back as when its serialization is tokenized, and the trees for which it does.
-/
namespace Verif.Spec.HtmlRoundTrip
open Verif.Spec.HtmlSerial (Dom Data Attr htmlNs voidNames rawNames)
open Verif.Model.HtmlTok (Tok)
open Verif.Spec.HtmlAtom (codes)

mutual
/-- Start and end tags around the tokens of the children, characters for texts, one token for comments and document types. -/
def tokens : Dom → List Tok
  | .mk (.element _ _ name attrs) ks =>
    .startTag name (attrs.map fun a => (a.name, a.val)) false ::
      (if name ∈ voidNames then [] else tokensAll ks ++ [.endTag name [] false])
  | .mk (.text s) _ => s.map .char
  | .mk (.comment s) _ => [.comment s]
  | .mk (.doctype name) _ => [.doctype ⟨name, [], [], false⟩]
  | .mk (.pi _ _) _ => []
  | .mk .other _ => []

def tokensAll : List Dom → List Tok
  | [] => []
  | n :: r => tokens n ++ tokensAll r
end

/-- A character that a name keeps: no white space, "/", ">", NUL, or capital letter. -/
def NameChar (c : Nat) : Prop := c ∉ [0x9, 0xA, 0xC, 0xD, 0x20, 0x2F, 0x3E, 0] ∧ ¬ (0x41 ≤ c ∧ c ≤ 0x5A)

instance (c : Nat) : Decidable (NameChar c) := by unfold NameChar; infer_instance

/-- A name that begins with a small letter. -/
def TagName (s : List Nat) : Prop := (∃ c r, s = c :: r ∧ 0x61 ≤ c ∧ c ≤ 0x7A) ∧ ∀ c ∈ s, NameChar c

/-- An attribute without namespace; its value is any string without NUL and carriage return. -/
def PlainAttr (a : Attr) : Prop :=
  a.ns = [] ∧ a.name ≠ [] ∧ (∀ c ∈ a.name, NameChar c ∧ c ≠ 0x3D) ∧ 0 ∉ a.val ∧ 0xD ∉ a.val

/-- A comment without two dashes in a row, that neither ends in a dash nor begins with ">" or "->". -/
def PlainComment (s : List Nat) : Prop :=
  0 ∉ s ∧ 0xD ∉ s ∧ (∀ a b, s ≠ a ++ 0x2D :: 0x2D :: b) ∧ s.getLast? ≠ some 0x2D ∧ s.head? ≠ some 0x3E ∧ (∀ r, s ≠ 0x2D :: 0x3E :: r)

mutual
/-- HTML elements with plain names and attributes of different names, but no elements with raw text; void elements without
children; any text without carriage returns; plain comments; document types with a plain name. -/
def Plain : Dom → Prop
  | .mk (.element ns _ name attrs) ks =>
    ns = htmlNs ∧ TagName name ∧ name ∉ rawNames ∧ (∀ a ∈ attrs, PlainAttr a) ∧ (attrs.map (·.name)).Nodup ∧
      (name ∈ voidNames → ks = []) ∧ PlainAll ks
  | .mk (.text s) _ => 0xD ∉ s
  | .mk (.comment s) _ => PlainComment s
  | .mk (.doctype name) _ => name ≠ [] ∧ ∀ c ∈ name, NameChar c
  | .mk (.pi _ _) _ => False
  | .mk .other _ => False

def PlainAll : List Dom → Prop
  | [] => True
  | n :: r => Plain n ∧ PlainAll r
end

/-- The table knows the references that the serializer writes. -/
def Knows (refs : Verif.Spec.HtmlTok.Refs) : Prop :=
  ∀ p ∈ [(codes "amp;", 0x26), (codes "nbsp;", 0xA0), (codes "quot;", 0x22), (codes "lt;", 0x3C), (codes "gt;", 0x3E)],
    ∀ r, Verif.Spec.HtmlTok.longest refs (p.1 ++ r) = some (p.1, [p.2])

end Verif.Spec.HtmlRoundTrip
