import Verif.Model.HtmlTree
import Verif.Model.Meta
import Verif.Model.TextDecoder
/-
Model of parsing bytes: `parse` of `basic_simple_parser` (html/simple_parser.hpp:264-300) for characters of one byte, with the
restart when a `meta` element declares another encoding.
-/
namespace Verif.Model.HtmlBytes
open Verif.Model.Legacy Verif.Model.Meta Verif.Model.HtmlTree Verif.Model.TextDecoder

/-- The attributes of a `meta` element. An element of this name in the HTML namespace is created by the `meta` case of "in head" and
nowhere else (tree_construction_dispatcher.hpp:1847-1850), from a token with these attributes. -/
def metaOf (n : Node) : Option (List (List Nat × List Nat)) :=
  match n.kind with
  | .elem .html (.k .metaEl) attrs => some (attrs.map fun a => (a.name, a.val))
  | _ => none

/-- The `meta` elements that have been created, in this order. -/
def metas : R S → List (List (List Nat × List Nat))
  | .ok s => s.dom.filterMap metaOf
  | .error _ => []

/-- The first declared encoding: the calls of the `meta` case as long as `m_encoding_confidence` is tentative (1851-1876). The outer
`none` = undefined behaviour. -/
def firstOf : List (List (List Nat × List Nat)) → Option (Option Enc)
  | [] => some none
  | as :: l =>
    match declared as with
    | none => none
    | some (some e) => some (some e)
    | some none => firstOf l

/-- How the loop over the code points (simple_parser.hpp:289-297) ends. -/
inductive Pass
  | done (r : R S)
  | change (e : Enc)
  | undefined
  | endless

/-- The loop (289-297). Simplified: what the `meta` elements created by one code point do is found by looking at all `meta` elements
behind it; those looked at before, with the confidence still tentative, declare nothing. -/
def pass (tbl : List Nat → Bool) (find : HtmlTok.Find) (f : Nat) (cur : Enc) :
    Confidence → Bool → List Nat → HtmlTok.M (R S) → Pass
  | _, _, [], m => .done m.sink
  | conf, cr, cp :: l, m =>
    match HtmlTok.feed (sink tbl) find f cr [cp] m with
    | none => .endless
    | some (cr, m) =>
      if conf = .tentative then
        match firstOf (metas m.sink) with
        | none => .undefined
        | some none => pass tbl find f cur conf cr l m
        | some (some e) =>
          match change cur e with
          | some e' => .change e'
          | none => pass tbl find f cur .certain cr l m
      else pass tbl find f cur conf cr l m

/-- How parsing bytes ends: with a document, decoded as `e`; with `std::range_error`; with undefined behaviour; or it does not
within the given bounds. -/
inductive Outcome
  | document (e : Enc) (r : R S)
  | thrown
  | undefined
  | endless

/-- `text_decoder(name, false, false).decode(first, last)` (286-287) on a new object: the text. -/
def decodeText (name : Enc) (fuel : Nat) (bytes : List Nat) : Coder.Ends (Option (List Nat)) :=
  match construct (some name) false false with
  | none => .stop none
  | some o => decodeChunks o fuel ⟨(decoderOf o.name).init, [], false, false⟩ [] bytes

/-- From `Start:` (284-298), at most `n` times. `f` bounds the loops of the tokenizer and `fuel` those of the decoder. `enc` is
`m_encoding_name`; the confidence behind a restart is what `change_encoding` left (318, 324). -/
def parseBytes (tbl : List Nat → Bool) (find : HtmlTok.Find) (f fuel : Nat) (bytes : List Nat) :
    Nat → Confidence → Option Enc → Outcome
  | 0, _, _ => .endless
  | n + 1, conf, enc =>
    let cur := enc.getD .UTF_8
    match decodeText cur fuel bytes with
    | .ub => .undefined
    | .more => .endless
    | .stop none => .thrown
    | .stop (some text) =>
      match pass tbl find f cur conf false text (HtmlTok.init (.ok init)) with
      | .done r => .document cur r
      | .change e => parseBytes tbl find f fuel bytes n .certain (some e)
      | .undefined => .undefined
      | .endless => .endless

end Verif.Model.HtmlBytes
