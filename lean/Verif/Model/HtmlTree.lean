import Verif.Model.HtmlTreeModes

/-!
# HTML tree construction: foreign content, the dispatcher and the parser

`whatwg/html/parsing/tree_construction_dispatcher.hpp` (cited by line number alone), `html/simple_parser.hpp`.
-/

namespace Verif.Model.HtmlTree
open Verif.Model.HtmlTok (St)

/-! ## The dispatcher (1040-1223) -/

/-- `is_mathml_text_integration_point` (1185-1199). -/
def mathPoint (e : Entry) : Bool := e.ns == .mathml && e.tag.mem [.mi, .mo, .mn, .ms, .mtext]

/-- `is_html_integration_point` (1201-1224). The attribute is looked for in the token of the entry. -/
def htmlPoint (e : Entry) : Bool :=
  match e.ns with
  | .html => false
  | .mathml => e.tag.is .annotationXml &&
    match e.attrs.find? fun a => a.name == cps "encoding" with
    | some a => a.val.map lower == cps "text/html" || a.val.map lower == cps "application/xhtml+xml"
    | none => false
  | .svg => e.tag.mem [.foreignObject, .desc, .title]

/-- The token is processed by the rules of the insertion mode (1061-1084), given the current node. -/
def byRules (e : Entry) : Tok → Bool
  | .start t _ _ => e.ns == .html || (mathPoint e && !t.mem [.mglyph, .malignmark]) || (e.tag.is .annotationXml && t.is .svg)
    || htmlPoint e
  | .char _ => e.ns == .html || mathPoint e || htmlPoint e
  | .eof => true
  | _ => e.ns == .html

/-- The `switch` over the insertion modes (1090-1161, 4944-5015). -/
def byMode (tbl : List Nat → Bool) (re : Re) (tok : Tok) (s : S) : R S :=
  match s.mode with
  | .initial => onInitial tbl re tok s
  | .beforeHtml => onBeforeHtml re tok s
  | .beforeHead => onBeforeHead re tok s
  | .inHead => onInHead re tok s
  | .inHeadNoscript => onInHeadNoscript re tok s
  | .afterHead => onAfterHead re tok s
  | .inBody => onInBody re tok s
  | .text => onText re tok s
  | .inTable => onInTable re tok s
  | .inTableText => onInTableText re tok s
  | .inCaption => onInCaption re tok s
  | .inColumnGroup => onInColumnGroup re tok s
  | .inTableBody => onInTableBody re tok s
  | .inRow => onInRow re tok s
  | .inCell => onInCell re tok s
  | .inSelect => onInSelect re tok s
  | .inSelectInTable => onInSelectInTable re tok s
  | .inTemplate => onInTemplate re tok s
  | .afterBody => onAfterBody re tok s
  | .inFrameset => onInFrameset tok s
  | .afterFrameset => onAfterFrameset tok s
  | .afterAfterBody => onAfterAfterBody re tok s
  | .afterAfterFrameset => onAfterAfterFrameset re tok s

/-! ## Foreign content (4786-5019) -/

/-- The start tags that leave foreign content (4834-4844). -/
def breakout : List K :=
  [.b, .big, .blockquote, .body, .br, .center, .code, .dd, .div, .dl, .dt, .em, .embed, .h1, .h2, .h3, .h4, .h5, .h6, .head, .hr,
   .i, .img, .li, .listing, .menu, .metaEl, .nobr, .ol, .p, .pre, .ruby, .s, .small, .span, .strong, .strike, .sub, .sup, .table,
   .tt, .u, .ul, .var]

/-- A `font` with one of three attributes (4850-4855). -/
def fontBreak (attrs : List At) : Bool :=
  attrs.any fun a => a.name == cps "Color" || a.name == cps "Face" || a.name == cps "Size"

/-- The loop of pops (4862-4868). -/
def popForeign : List Entry → R (List Entry)
  | [] => .error .empty
  | [_] => .error .empty
  | _ :: e :: l => if mathPoint e || htmlPoint e || e.ns == .html then .ok (e :: l) else popForeign (e :: l)

/-- The start tags of foreign content (4829-4906). The conversion of the names of SVG elements (4882-4883) changes the string of
the token but not its enumerator, from which the element is made (1314-1317); all names of the table have enumerators
(`Verif.Proof.HtmlTree`), so that it has no effect. -/
def foreignStart (re : Re) (t : Tag) (attrs : List At) (self : Bool) (s : S) : R S :=
  if t.mem breakout || (t.is .font && fontBreak attrs) then do
    let s ← pop s
    let st ← popForeign s.stack
    re (.start t attrs self) { s with stack := st }
  else do
    let e ← cur s
    let attrs := match e.ns with
      | .mathml => adjustMath attrs
      | .svg => adjustSvg attrs
      | .html => attrs
    let attrs := adjustForeign attrs
    let s ← insertForeign (keepSlots s attrs) e.ns t attrs
    if self then pop s else .ok s

/-- What the loop of the end tags finds (4928-4942). -/
inductive Found
  | none
  | entry (n : Nat)
  | html
deriving DecidableEq, Repr

/-- The loop of the end tags (4928-4942), from the top of the stack. -/
def foreignLoop (t : Tag) : List Entry → Found
  | [] => .none
  | [_] => .none
  | e :: e2 :: l =>
    if e.tag.name.map lower = t.name then .entry e.node
    else if e2.ns = .html then .html
    else foreignLoop t (e2 :: l)

/-- The end tags of foreign content (4908-5016). -/
def foreignEnd (tbl : List Nat → Bool) (re : Re) (t : Tag) (s : S) : R S := do
  let e ← cur s
  if t.is .script && e.ns == .svg && e.tag.is .script then pop s
  else
    match foreignLoop t s.stack with
    | .none => .ok s
    | .entry n => .ok (s.popUntil (·.node == n))
    | .html => byMode tbl re (.fin t) s

/-- `on_foreign_content` (4786-5019). -/
def onForeign (tbl : List Nat → Bool) (re : Re) (tok : Tok) (s : S) : R S :=
  match tok with
  | .char c =>
    if c = 0 then insertChar s 0xFFFD
    else do
      let s ← insertChar s c
      .ok (if ws c then s else { s with framesetOk := false })
  | .comment t => insertComment s t
  | .doctype _ => .ok s
  | .start t attrs self => foreignStart re t attrs self s
  | .fin t => foreignEnd tbl re t s
  | .eof => .error .assertion

/-! ## Processing -/

/-- The part of `process_token` behind `m_omit_lf` (1053-1171). -/
def step (tbl : List Nat → Bool) (re : Re) (tok : Tok) (s : S) : R S :=
  match s.stack with
  | [] => byMode tbl re tok s
  | e :: _ => if byRules e tok then byMode tbl re tok s else onForeign tbl re tok s

/-- `process_token` (1040-1171). The first argument bounds the number of times that a token is reprocessed. -/
def process (tbl : List Nat → Bool) : Nat → Tok → S → R S
  | 0, _, _ => .error .fuel
  | n + 1, tok, s =>
    if s.omitLf && tok == .char 0xA then .ok { s with omitLf := false }
    else step tbl (process tbl n) tok { s with omitLf := false }

/-- A bound that is never reached (C106). -/
def bound (s : S) : Nat := 9 * s.stack.length + 8 * s.fmt.length + 64

/-- A token of the tokenizer arrives. -/
def emit (tbl : List Nat → Bool) (tok : Tok) (s : S) : R S := process tbl (bound s) tok { s with switch := none }

/-- The tokens one after another. -/
def emits (tbl : List Nat → Bool) : List Tok → S → R S
  | [], s => .ok s
  | tok :: l, s => do
    let s ← emit tbl tok s
    emits tbl l s

/-! ## The tokenizer and the tree construction together -/

/-- The attributes of a token in their slots, with what earlier tokens have left there. -/
def slotted : List (List Nat) → List (List Nat × List Nat) → List At
  | _, [] => []
  | [], (n, v) :: l => ⟨.none, [], n, v⟩ :: slotted [] l
  | p :: sl, (n, v) :: l => ⟨.none, p, n, v⟩ :: slotted sl l

/-- A token of the tokenizer as the tree construction sees it. -/
def convert (s : S) : HtmlTok.Tok → Tok
  | .doctype d => .doctype d
  | .startTag n a f => .start (Tag.ofName n) (slotted s.slots a) f
  | .endTag n _ _ => .fin (Tag.ofName n)
  | .comment t => .comment t
  | .char c => .char c
  | .eof => .eof

/-- The state of the tokenizer. -/
def Sw.st : Sw → HtmlTok.St
  | .rcdata => .rcdata
  | .rawtext => .rawtext
  | .scriptData => .scriptData
  | .plaintext => .plaintext

/-- The dispatcher as the receiver of tokens. A failure ends everything. -/
def sink (tbl : List Nat → Bool) : HtmlTok.Sink (R S) where
  emit r tok := do
    let s ← r
    emit tbl (convert s tok) s
  switch
    | .ok s => s.switch.map Sw.st
    | .error _ => none
  node
    | .ok s => s.stack.head?.map fun e => e.ns == .html
    | .error _ => none

/-- `parse` (simple_parser.hpp:264-310): the code points are pushed one after another, and that is all. The first number bounds the
loops of the tokenizer. -/
def parse (tbl : List Nat → Bool) (find : HtmlTok.Find) (f : Nat) (l : List Nat) : Option (R S) :=
  (HtmlTok.feed (sink tbl) find f false l (HtmlTok.init (.ok init))).map (·.2.sink)

/-- `parse`, then `push_eof`. -/
def parseEof (tbl : List Nat → Bool) (find : HtmlTok.Find) (f : Nat) (l : List Nat) : Option (R S) :=
  (HtmlTok.tokenize (sink tbl) find f (.ok init) l).map (·.sink)

end Verif.Model.HtmlTree
