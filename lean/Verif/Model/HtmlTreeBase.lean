import Verif.Model.HtmlTok
import Mathlib.Data.List.Basic

/-!
# HTML tree construction: names, tree, state and helpers

`whatwg/html/parsing/tree_construction_dispatcher.hpp` (cited by line number alone), `html/simple_parser.hpp`,
`html/simple_traits.hpp`, `html/simple_node.hpp`.

Left out: error reports, the encoding (`change_encoding`, so also the `meta` part of "in head"), scripts (`m_scripting_flag` is
always false), and the fragment case (`m_fragments_parser` is false, its default).
-/

namespace Verif.Model.HtmlTree
open Verif.Model.HtmlTok (Doctype St)

/-- The code points of a literal. -/
def cps (s : String) : List Nat := s.toList.map Char.toNat

/-- The enumerators of `tag_name` (atom_defs.hpp) that the dispatcher names. -/
inductive K
  | a | address | annotationXml | applet | area | article | aside | b | base | basefont | bgsound | big | blockquote
  | body | br | button | caption | center | code | col | colgroup | dd | desc | details | dialog | dir | div | dl
  | dt | em | embed | factorial | fieldset | figcaption | figure | font | footer | foreignObject | form | frame
  | frameset | h1 | h2 | h3 | h4 | h5 | h6 | head | header | hgroup | hr | html | i | iframe | image | img | input
  | keygen | li | link | listing | main | malignmark | marquee | math | menu | metaEl | mglyph | mi | mn | mo | ms
  | mtext | nav | nobr | noembed | noframes | noscript | object | ol | optgroup | option | p | param | plaintext
  | pre | rb | rp | rt | rtc | ruby | s | script | sectionEl | select | small | source | span | strike | strong | style
  | sub | summary | sup | svg | table | tbody | td | template | textarea | tfoot | th | thead | title | tr | track
  | tt | u | ul | var | wbr | xmp
deriving DecidableEq, Repr

/-- The names of the enumerators (`tag_atom_tbl`, atom_tbl.cpp). -/
def K.names : List (K × String) :=
  [(.a, "a"), (.address, "address"), (.annotationXml, "annotation-xml"), (.applet, "applet"), (.area, "area"),
   (.article, "article"), (.aside, "aside"), (.b, "b"), (.base, "base"), (.basefont, "basefont"),
   (.bgsound, "bgsound"), (.big, "big"), (.blockquote, "blockquote"), (.body, "body"), (.br, "br"),
   (.button, "button"), (.caption, "caption"), (.center, "center"), (.code, "code"), (.col, "col"),
   (.colgroup, "colgroup"), (.dd, "dd"), (.desc, "desc"), (.details, "details"), (.dialog, "dialog"), (.dir, "dir"),
   (.div, "div"), (.dl, "dl"), (.dt, "dt"), (.em, "em"), (.embed, "embed"), (.factorial, "factorial"),
   (.fieldset, "fieldset"), (.figcaption, "figcaption"), (.figure, "figure"), (.font, "font"), (.footer, "footer"),
   (.foreignObject, "foreignObject"), (.form, "form"), (.frame, "frame"), (.frameset, "frameset"), (.h1, "h1"),
   (.h2, "h2"), (.h3, "h3"), (.h4, "h4"), (.h5, "h5"), (.h6, "h6"), (.head, "head"), (.header, "header"),
   (.hgroup, "hgroup"), (.hr, "hr"), (.html, "html"), (.i, "i"), (.iframe, "iframe"), (.image, "image"),
   (.img, "img"), (.input, "input"), (.keygen, "keygen"), (.li, "li"), (.link, "link"), (.listing, "listing"),
   (.main, "main"), (.malignmark, "malignmark"), (.marquee, "marquee"), (.math, "math"), (.menu, "menu"),
   (.metaEl, "meta"), (.mglyph, "mglyph"), (.mi, "mi"), (.mn, "mn"), (.mo, "mo"), (.ms, "ms"), (.mtext, "mtext"),
   (.nav, "nav"), (.nobr, "nobr"), (.noembed, "noembed"), (.noframes, "noframes"), (.noscript, "noscript"),
   (.object, "object"), (.ol, "ol"), (.optgroup, "optgroup"), (.option, "option"), (.p, "p"), (.param, "param"),
   (.plaintext, "plaintext"), (.pre, "pre"), (.rb, "rb"), (.rp, "rp"), (.rt, "rt"), (.rtc, "rtc"), (.ruby, "ruby"),
   (.s, "s"), (.script, "script"), (.sectionEl, "section"), (.select, "select"), (.small, "small"),
   (.source, "source"), (.span, "span"), (.strike, "strike"), (.strong, "strong"), (.style, "style"), (.sub, "sub"),
   (.summary, "summary"), (.sup, "sup"), (.svg, "svg"), (.table, "table"), (.tbody, "tbody"), (.td, "td"),
   (.template, "template"), (.textarea, "textarea"), (.tfoot, "tfoot"), (.th, "th"), (.thead, "thead"),
   (.title, "title"), (.tr, "tr"), (.track, "track"), (.tt, "tt"), (.u, "u"), (.ul, "ul"), (.var, "var"),
   (.wbr, "wbr"), (.xmp, "xmp")]

/-- A tag name: one of those above, or any other. The library has further enumerators, none of which the dispatcher names, so
they behave as names without an enumerator do. -/
inductive Tag
  | k (t : K)
  | other (s : List Nat)
deriving DecidableEq, Repr

/-- The atom of a tag name (tokenization.hpp:222-226). -/
def Tag.ofName (s : List Nat) : Tag :=
  match K.names.find? (fun e => cps e.2 == s) with
  | some e => .k e.1
  | none => .other s

/-- The name of a tag. -/
def Tag.name : Tag → List Nat
  | .k t => match K.names.find? (fun e => e.1 == t) with
    | some e => cps e.2
    | none => []
  | .other s => s

/-- A tag name is one of a list (`switch` with `case` labels). -/
def Tag.mem : Tag → List K → Bool
  | .k t, l => l.contains t
  | .other _, _ => false

/-- A tag name is the given one. -/
def Tag.is : Tag → K → Bool
  | .k t, x => t == x
  | .other _, _ => false

/-- The namespaces of elements. -/
inductive Ns | html | mathml | svg
deriving DecidableEq, Repr

/-- The namespaces of attributes (`none` is 0). -/
inductive ANs | none | xlink | xml | xmlns
deriving DecidableEq, Repr

/-- An attribute: `token_attribute` (token.hpp:52-75), `simple_attr` (simple_node.hpp:60-165). -/
structure At where
  ns : ANs
  pre : List Nat
  name : List Nat
  val : List Nat
deriving DecidableEq, Repr

/-- `operator==` of `simple_attr` (simple_node.hpp:168-173): the value is not compared. -/
def At.same (x y : At) : Bool := x.ns == y.ns && x.pre == y.pre && x.name == y.name

/-- `operator==` of `simple_element` (simple_node.hpp:566-578): neither the names of the elements nor the values of the
attributes are compared. -/
def sameEl (x y : List At) : Bool := x.length == y.length && x.all fun a => y.any fun b => b.same a

/-- `svg_attributes_conversion_tbl` (atom_tbl.cpp:4765-4776). -/
def svgAttrs : List (String × String) :=
  [("attributename", "attributeName"), ("attributetype", "attributeType"), ("basefrequency", "baseFrequency"),
   ("baseprofile", "baseProfile"), ("calcmode", "calcMode"), ("clippathunits", "clipPathUnits"),
   ("diffuseconstant", "diffuseConstant"), ("edgemode", "edgeMode"), ("filterunits", "filterUnits"),
   ("glyphref", "glyphRef"), ("gradienttransform", "gradientTransform"), ("gradientunits", "gradientUnits"),
   ("kernelmatrix", "kernelMatrix"), ("kernelunitlength", "kernelUnitLength"), ("keypoints", "keyPoints"),
   ("keysplines", "keySplines"), ("keytimes", "keyTimes"), ("lengthadjust", "lengthAdjust"),
   ("limitingconeangle", "limitingConeAngle"), ("markerheight", "markerHeight"), ("markerunits", "markerUnits"),
   ("markerwidth", "markerWidth"), ("maskcontentunits", "maskContentUnits"), ("maskunits", "maskUnits"),
   ("numoctaves", "numOctaves"), ("pathlength", "pathLength"), ("patterncontentunits", "patternContentUnits"),
   ("patterntransform", "patternTransform"), ("patternunits", "patternUnits"), ("pointsatx", "pointsAtX"),
   ("pointsaty", "pointsAtY"), ("pointsatz", "pointsAtZ"), ("preservealpha", "preserveAlpha"),
   ("preserveaspectratio", "preserveAspectRatio"), ("primitiveunits", "primitiveUnits"), ("refx", "refX"),
   ("refy", "refY"), ("repeatcount", "repeatCount"), ("repeatdur", "repeatDur"),
   ("requiredextensions", "requiredExtensions"), ("requiredfeatures", "requiredFeatures"),
   ("specularconstant", "specularConstant"), ("specularexponent", "specularExponent"),
   ("spreadmethod", "spreadMethod"), ("startoffset", "startOffset"), ("stddeviation", "stdDeviation"),
   ("stitchtiles", "stitchTiles"), ("surfacescale", "surfaceScale"), ("systemlanguage", "systemLanguage"),
   ("tablevalues", "tableValues"), ("targetx", "targetX"), ("targety", "targetY"), ("textlength", "textLength"),
   ("viewbox", "viewBox"), ("viewtarget", "viewTarget"), ("xchannelselector", "xChannelSelector"),
   ("ychannelselector", "yChannelSelector"), ("zoomandpan", "zoomAndPan")]

/-- `svg_elements_conversion_tbl` (atom_tbl.cpp:5141-5145). -/
def svgElems : List (String × String) :=
  [("altglyph", "altGlyph"), ("altglyphdef", "altGlyphDef"), ("altglyphitem", "altGlyphItem"),
   ("animatecolor", "animateColor"), ("animatemotion", "animateMotion"), ("animatetransform", "animateTransform"),
   ("clippath", "clipPath"), ("feblend", "feBlend"), ("fecolormatrix", "feColorMatrix"),
   ("fecomponenttransfer", "feComponentTransfer"), ("fecomposite", "feComposite"),
   ("feconvolvematrix", "feConvolveMatrix"), ("fediffuselighting", "feDiffuseLighting"),
   ("fedisplacementmap", "feDisplacementMap"), ("fedistantlight", "feDistantLight"),
   ("fedropshadow", "feDropShadow"), ("feflood", "feFlood"), ("fefunca", "feFuncA"), ("fefuncb", "feFuncB"),
   ("fefuncg", "feFuncG"), ("fefuncr", "feFuncR"), ("fegaussianblur", "feGaussianBlur"), ("feimage", "feImage"),
   ("femerge", "feMerge"), ("femergenode", "feMergeNode"), ("femorphology", "feMorphology"),
   ("feoffset", "feOffset"), ("fepointlight", "fePointLight"), ("fespecularlighting", "feSpecularLighting"),
   ("fespotlight", "feSpotLight"), ("fetile", "feTile"), ("feturbulence", "feTurbulence"),
   ("foreignobject", "foreignObject"), ("glyphref", "glyphRef"), ("lineargradient", "linearGradient"),
   ("radialgradient", "radialGradient"), ("textpath", "textPath")]

/-- `foreign_attributes_conversion_tbl` (atom_tbl.cpp:4778-4781). -/
def foreignAttrs : List (String × ANs × String × String) :=
  [("xlink:actuate", .xlink, "xlink", "actuate"), ("xlink:arcrole", .xlink, "xlink", "arcrole"),
   ("xlink:href", .xlink, "xlink", "href"), ("xlink:role", .xlink, "xlink", "role"),
   ("xlink:show", .xlink, "xlink", "show"), ("xlink:title", .xlink, "xlink", "title"),
   ("xlink:type", .xlink, "xlink", "type"), ("xml:lang", .xml, "xml", "lang"), ("xml:space", .xml, "xml", "space"),
   ("xmlns", .xmlns, "", "xmlns"), ("xmlns:xlink", .xmlns, "xmlns", "xlink")]

/-- The tokens as the tree construction stage sees them. -/
inductive Tok
  | doctype (d : Doctype)
  | start (t : Tag) (attrs : List At) (self : Bool)
  | fin (t : Tag)
  | comment (s : List Nat)
  | char (c : Nat)
  | eof
deriving DecidableEq, Repr

/-! ## The tree -/

/-- The values of nodes (`simple_node`). -/
inductive Kind
  | document
  | doctype (name pub sys : List Nat)
  | elem (ns : Ns) (tag : Tag) (attrs : List At)
  | text (s : List Nat)
  | comment (s : List Nat)
deriving DecidableEq, Repr

/-- A node. Elements that have been created but not yet been inserted are below `m_temporary` in the library
(simple_parser.hpp:104-118); here they have no parent. -/
structure Node where
  kind : Kind
  parent : Option Nat
  kids : List Nat
deriving DecidableEq, Repr

/-- The tree container, as a store of nodes addressed by their index; 0 is the document. That the container is an ordered forest
is C10. -/
abbrev Dom := List Node

/-- What ends a call other than its return. -/
inductive Fail
  /-- `back()`, `front()` or `pop_back()` of an empty container, or an iterator moved before its beginning. -/
  | empty
  /-- A failed `assert`. -/
  | assertion
  /-- An iterator of an erased element of `m_list`. -/
  | stale
  /-- A node moved below itself (`tree::move` throws). -/
  | badMove
  /-- A node used behind its erasure. -/
  | freed
  /-- A null pointer to a node. -/
  | null
  /-- The bound of the number of reprocessed tokens, which the code does not have. -/
  | fuel
deriving DecidableEq, Repr

/-- The outcome of a call. -/
abbrev R (α : Type) := Except Fail α

/-- The parent of a node. -/
def parentOf (d : Dom) (x : Nat) : Option Nat := (d[x]?).bind Node.parent

/-- The children of a node. -/
def kidsOf (d : Dom) (x : Nat) : List Nat := ((d[x]?).map Node.kids).getD []

/-- The value of a node. -/
def kindOf (d : Dom) (x : Nat) : Option Kind := (d[x]?).map Node.kind

/-- A place to insert at: the end of the children of a node, or just before a node. -/
inductive Place
  | last (p : Nat)
  | before (x : Nat)
deriving DecidableEq, Repr

/-- `traits::parent` of a position. -/
def Place.parent (d : Dom) : Place → Option Nat
  | .last p => some p
  | .before x => parentOf d x

/-- Put `x` just before `y` into a list. -/
def insBefore (y x : Nat) : List Nat → List Nat
  | [] => [x]
  | z :: l => if z = y then x :: z :: l else z :: insBefore y x l

/-- Link a node that has no parent. -/
def link (d : Dom) (pl : Place) (x : Nat) : R Dom :=
  match pl with
  | .last p => .ok ((d.modify p fun n => { n with kids := n.kids ++ [x] }).modify x fun n => { n with parent := some p })
  | .before y =>
    match parentOf d y with
    | none => .error .null
    | some p => .ok ((d.modify p fun n => { n with kids := insBefore y x n.kids }).modify x fun n => { n with parent := some p })

/-- Take a node from its parent. -/
def unlink (d : Dom) (x : Nat) : Dom :=
  match parentOf d x with
  | none => d
  | some p => (d.modify p fun n => { n with kids := n.kids.erase x }).modify x fun n => { n with parent := none }

/-- A node is `x` or below `x`: the way up from it, as long as the store. -/
def under (d : Dom) (x : Nat) : Nat → Nat → Bool
  | 0, _ => true
  | f + 1, y =>
    if y = x then true
    else match parentOf d y with
      | none => false
      | some p => under d x f p

/-- `move` of the container (simple_parser.hpp:120-123, 138-141). -/
def moveNode (d : Dom) (pl : Place) (x : Nat) : R Dom :=
  match pl.parent d with
  | none => .error .null
  | some p =>
    if under d x d.length p then .error .badMove
    else if pl = .before x then .error .badMove
    else link (unlink d x) pl x

/-! ## The state -/

/-- `mode_name` (75-100). -/
inductive Mode
  | initial | beforeHtml | beforeHead | inHead | inHeadNoscript | afterHead | inBody | text | inTable | inTableText | inCaption
  | inColumnGroup | inTableBody | inRow | inCell | inSelect | inSelectInTable | inTemplate | afterBody | inFrameset
  | afterFrameset | afterAfterBody | afterAfterFrameset
deriving DecidableEq, Repr

/-- `stack_entry` (112-116). The namespace and the name of the element are kept in the entry, instead of being looked up in the
tree each time: they do not change. `attrs` are those of the token. -/
structure Entry where
  node : Nat
  ns : Ns
  tag : Tag
  attrs : List At
deriving DecidableEq, Repr

/-- `active_formatting_element` (127-132). The elements are all in the HTML namespace. -/
inductive Fmt
  | marker
  | el (e : Entry)
deriving DecidableEq, Repr

/-- `document_mode_name`. -/
inductive DocMode | noQuirks | quirks | limited
deriving DecidableEq, Repr

/-- The states of the tokenizer to which the tree construction changes (1471, 1482, 1910, 2547, 2907). -/
inductive Sw
  | rcdata
  | rawtext
  | scriptData
  | plaintext
deriving DecidableEq, Repr

/-- The data members (52-200) and the document. The tops of the stacks and the end of the list of formatting elements are in
front. `switch` is the state to which the tokenizer has been changed, `slots` the prefixes left over in the attributes of the
start tag token, which `token_attribute::clear` keeps (token.hpp:59-65); the slots of omitted attributes are not counted. -/
structure S where
  dom : Dom
  doc : DocMode
  mode : Mode
  orig : Mode
  tmpl : List Mode
  stack : List Entry
  fmt : List Fmt
  head : Option Nat
  form : Option Nat
  framesetOk : Bool
  foster : Bool
  omitLf : Bool
  pending : List Nat
  switch : Option Sw
  slots : List (List Nat)
deriving DecidableEq, Repr

/-- The constructors (196-215, simple_parser.hpp:59-68). -/
def init : S :=
  { dom := [⟨.document, none, []⟩], doc := .noQuirks, mode := .initial, orig := .initial, tmpl := [], stack := [], fmt := [],
    head := none, form := none, framesetOk := true, foster := false, omitLf := false, pending := [], switch := none, slots := [] }

/-! ## The stack of open elements -/

/-- `is_html_element_of` (258-261). -/
def Entry.is (e : Entry) (t : K) : Bool := e.ns == .html && e.tag.is t

/-- `is_html_element_of` for one of several names. -/
def Entry.isIn (e : Entry) (l : List K) : Bool := e.ns == .html && e.tag.mem l

/-- `is_html_element_of` with the name of a tag. -/
def Entry.isTag (e : Entry) (t : Tag) : Bool := e.ns == .html && e.tag == t

/-- `m_stack.back()` (498). -/
def cur (s : S) : R Entry :=
  match s.stack with
  | [] => .error .empty
  | e :: _ => .ok e

/-- `m_stack.pop_back()`. -/
def pop (s : S) : R S :=
  match s.stack with
  | [] => .error .empty
  | _ :: l => .ok { s with stack := l }

/-- `m_stack.front()`. -/
def front (s : S) : R Entry :=
  match s.stack.getLast? with
  | none => .error .empty
  | some e => .ok e

/-- `contains(ns_name::HTML, tag)`, `contains(tag)` (450-476). -/
def has (s : S) (t : K) : Bool := s.stack.any fun e => e.is t

/-- `contains(it)` (486-490). -/
def hasNode (s : S) (n : Nat) : Bool := s.stack.any fun e => e.node == n

/-- The names in the HTML namespace that `is_special` lists (534-550). -/
def specials : List K :=
  [.address, .applet, .area, .article, .aside, .base, .basefont, .bgsound, .blockquote, .body, .br, .button, .caption, .center,
   .col, .colgroup, .dd, .details, .dir, .div, .dl, .dt, .embed, .fieldset, .figcaption, .figure, .footer, .form, .frame,
   .frameset, .h1, .h2, .h3, .h4, .h5, .h6, .head, .header, .hgroup, .hr, .html, .iframe, .img, .input, .keygen, .li, .link,
   .listing, .main, .marquee, .menu, .metaEl, .nav, .noembed, .noframes, .noscript, .object, .ol, .p, .param, .plaintext, .pre,
   .script, .sectionEl, .select, .source, .style, .summary, .table, .tbody, .td, .template, .textarea, .tfoot, .th, .thead, .title,
   .tr, .track, .ul, .wbr, .xmp]

/-- `is_special` (527-575). -/
def special (e : Entry) : Bool :=
  match e.ns with
  | .html => e.tag.mem specials
  | .mathml => e.tag.mem [.mi, .mo, .mn, .ms, .mtext, .annotationXml]
  | .svg => e.tag.mem [.foreignObject, .desc, .title]

/-- `is_default_scope` (682-720). -/
def defaultScope (e : Entry) : Bool :=
  match e.ns with
  | .html => e.tag.mem [.applet, .caption, .html, .table, .td, .th, .marquee, .object, .template]
  | .mathml => e.tag.mem [.mi, .mo, .mn, .ms, .mtext, .annotationXml]
  | .svg => e.tag.mem [.factorial, .foreignObject, .desc, .title]

/-- `is_list_item_scope` (731-737). -/
def listScope (e : Entry) : Bool := defaultScope e || e.isIn [.ol, .ul]

/-- `is_button_scope` (748-754). -/
def buttonScope (e : Entry) : Bool := defaultScope e || e.is .button

/-- `is_table_scope` (765-772). -/
def tableScope (e : Entry) : Bool := e.isIn [.html, .table, .template]

/-- `is_select_scope` (783-788). -/
def selectScope (e : Entry) : Bool := !e.isIn [.optgroup, .option]

/-- `in_specific_scope` (632-673). -/
def inScope (scope target : Entry → Bool) : List Entry → R Bool
  | [] => .error .assertion
  | e :: l => if target e then .ok true else if scope e then .ok false else inScope scope target l

/-- `pop_until` (806-862): the entry that is looked for is popped, too; nothing is left when there is none. -/
def popUntil (p : Entry → Bool) : List Entry → List Entry
  | [] => []
  | e :: l => if p e then l else popUntil p l

/-- `pop_until` on the state. -/
def S.popUntil (s : S) (p : Entry → Bool) : S := { s with stack := HtmlTree.popUntil p s.stack }

/-- `remove` (889-895). -/
def removeNode (s : S) (n : Nat) : R S :=
  if hasNode s n then .ok { s with stack := s.stack.eraseP fun e => e.node == n } else .error .assertion

/-- `generate_implied_end_tags` (1497-1536); `keep` is the exception. -/
def implied (keep : Entry → Bool) : List Entry → List Entry
  | [] => []
  | e :: l =>
    if keep e then e :: l
    else if e.isIn [.dd, .dt, .li, .optgroup, .option, .p, .rb, .rp, .rt, .rtc] then implied keep l
    else e :: l

/-- `generate_implied_end_tags` on the state. -/
def S.implied (s : S) (keep : Entry → Bool := fun _ => false) : S := { s with stack := HtmlTree.implied keep s.stack }

/-- `generate_all_implied_end_tags_thoroughly` (1541-1562). -/
def impliedAll : List Entry → List Entry
  | [] => []
  | e :: l =>
    if e.isIn [.caption, .colgroup, .dd, .dt, .li, .optgroup, .option, .p, .rb, .rp, .rt, .rtc, .tbody, .td, .tfoot, .th, .thead,
        .tr] then impliedAll l
    else e :: l

/-- The insertion mode of a `select` (370-396): the entries below it. -/
def resetSelect : List Entry → Mode
  | [] => .inSelect
  | e :: l => if e.is .template then .inSelect else if e.is .table then .inSelectInTable else resetSelect l

/-- `reset_insertion_mode_appropriately` (354-433). -/
def resetMode (head : Option Nat) (tmpl : List Mode) : List Entry → R Mode
  | [] => .error .assertion
  | e :: l =>
    if e.is .select then .ok (if l = [] then .inSelect else resetSelect l)
    else if e.isIn [.td, .th] && l != [] then .ok .inCell
    else if e.is .tr then .ok .inRow
    else if e.isIn [.tbody, .thead, .tfoot] then .ok .inTableBody
    else if e.is .caption then .ok .inCaption
    else if e.is .colgroup then .ok .inColumnGroup
    else if e.is .table then .ok .inTable
    else if e.is .template then
      match tmpl with
      | [] => .error .empty
      | m :: _ => .ok m
    else if e.is .head && l != [] then .ok .inHead
    else if e.is .body then .ok .inBody
    else if e.is .frameset then .ok .inFrameset
    else if e.is .html then .ok (if head.isNone then .beforeHead else .afterHead)
    else if l = [] then .ok .inBody
    else resetMode head tmpl l

/-- `reset_insertion_mode_appropriately` on the state. -/
def reset (s : S) : R S := do
  let m ← resetMode s.head s.tmpl s.stack
  .ok { s with mode := m }

/-! ## Inserting -/

/-- The entries from the last `table` of the stack on, downwards. -/
def fromLast (t : K) : List Entry → List Entry
  | [] => []
  | e :: l => if e.is t then e :: l else fromLast t l

/-- `appropriate_place_for_inserting_node` (1237-1301). -/
def place (s : S) (target : Entry) : R Place :=
  if s.foster && target.isIn [.table, .tbody, .tfoot, .thead, .tr] then
    match fromLast .template s.stack, fromLast .table s.stack with
    | t :: lt, b :: lb =>
      if lb.length < lt.length then .ok (.last t.node)
      else fosterTable s b lb
    | [], b :: lb => fosterTable s b lb
    | _, [] => do
      let h ← front s
      .ok (.last h.node)
  else .ok (.last target.node)
where
  /-- Before the table, or behind the children of the entry below it (1284-1292). -/
  fosterTable (s : S) (b : Entry) (lb : List Entry) : R Place :=
    if parentOf s.dom b.node ≠ some 0 then .ok (.before b.node)
    else match lb with
      | [] => .error .empty
      | e :: _ => .ok (.last e.node)

/-- `create_element_for_token` (1308-1331). -/
def create (s : S) (ns : Ns) (t : Tag) (attrs : List At) : Nat × S :=
  (s.dom.length, { s with dom := s.dom ++ [⟨.elem ns t attrs, none, []⟩] })

/-- `insert_foreign_element` (1336-1351). -/
def insertForeign (s : S) (ns : Ns) (t : Tag) (attrs : List At) : R S := do
  let e ← cur s
  let pl ← place s e
  let (n, s) := create s ns t attrs
  let d ← link s.dom pl n
  .ok { s with dom := d, stack := ⟨n, ns, t, attrs⟩ :: s.stack }

/-- `insert_html_element` (1356-1359). -/
def insertHtml (s : S) (t : Tag) (attrs : List At) : R S := insertForeign s .html t attrs

/-- Insert an HTML element and pop it again. -/
def insertPop (s : S) (t : Tag) (attrs : List At) : R S := do
  let s ← insertHtml s t attrs
  pop s

/-- The child just before a place. -/
def prevKid (d : Dom) (p : Nat) : Place → Option Nat
  | .last _ => (kidsOf d p).getLast?
  | .before x => ((kidsOf d p).takeWhile (· ≠ x)).getLast?

/-- `insert_character` (1417-1439). -/
def insertChar (s : S) (c : Nat) : R S := do
  let e ← cur s
  let pl ← place s e
  match pl.parent s.dom with
  | none => .error .null
  | some p =>
    if p = 0 then .ok s
    else
      match (prevKid s.dom p pl).bind fun x => (kindOf s.dom x).bind fun k => match k with | .text t => some (x, t) | _ => none with
      | some (x, t) => .ok { s with dom := s.dom.modify x fun n => { n with kind := .text (t ++ [c]) } }
      | none => do
        let d ← link (s.dom ++ [⟨.text [c], none, []⟩]) pl s.dom.length
        .ok { s with dom := d }

/-- `insert_comment` at a place (1444-1450). -/
def commentAt (s : S) (pl : Place) (t : List Nat) : R S := do
  let d ← link (s.dom ++ [⟨.comment t, none, []⟩]) pl s.dom.length
  .ok { s with dom := d }

/-- `insert_comment` (1453-1456). -/
def insertComment (s : S) (t : List Nat) : R S := do
  let e ← cur s
  let pl ← place s e
  commentAt s pl t

/-- `adjust_mathml_attributes` (1364-1374). -/
def adjustMath (l : List At) : List At :=
  l.map fun a => if a.name == cps "definitionurl" then { a with name := cps "definitionURL" } else a

/-- `adjust_svg_attributes` (1379-1390). -/
def adjustSvg (l : List At) : List At :=
  l.map fun a => match svgAttrs.find? (fun e => cps e.1 == a.name) with
    | some e => { a with name := cps e.2 }
    | none => a

/-- `adjust_foreign_attributes` (1395-1412). -/
def adjustForeign (l : List At) : List At :=
  l.map fun a => match foreignAttrs.find? (fun e => cps e.1 == a.name) with
    | some (_, ns, pre, n) => { a with ns := ns, pre := cps pre, name := cps n }
    | none => a

/-- The prefixes that a token leaves in the slots of its attributes. -/
def keepSlots (s : S) (l : List At) : S := { s with slots := l.map At.pre ++ s.slots.drop l.length }

/-! ## The list of active formatting elements -/

/-- The entries behind the last marker. -/
def behindMarker : List Fmt → List Entry
  | .el e :: l => e :: behindMarker l
  | _ => []

/-- The attributes of an element. -/
def attrsOf (d : Dom) (n : Nat) : List At :=
  match kindOf d n with
  | some (.elem _ _ l) => l
  | _ => []

/-- Take away the entry of a node: `remove_from_list` (1027-1031). -/
def dropFmt (n : Nat) (l : List Fmt) : List Fmt :=
  l.eraseP fun f => match f with | .el e => e.node == n | .marker => false

/-- `find_from_list(it) != m_list.end()` (1008-1018). -/
def inFmt (n : Nat) (l : List Fmt) : Bool := l.any fun f => match f with | .el e => e.node == n | .marker => false

/-- `push_formatting_element_list` (918-940): when three elements behind the last marker are equal to it, the earliest is taken
away. -/
def pushFmt (s : S) (e : Entry) : S :=
  let same := (behindMarker s.fmt).filter fun x => sameEl (attrsOf s.dom e.node) (attrsOf s.dom x.node)
  let l := if 3 ≤ same.length then
      match same.getLast? with
      | some x => dropFmt x.node s.fmt
      | none => s.fmt
    else s.fmt
  { s with fmt := .el e :: l }

/-- `push_formatting_element_list()` (946-949). -/
def pushMarker (s : S) : S := { s with fmt := .marker :: s.fmt }

/-- `clear_formatting_element_list` (990-998). -/
def clearMarker : List Fmt → List Fmt
  | [] => []
  | .marker :: l => l
  | .el _ :: l => clearMarker l

/-- `clear_formatting_element_list` on the state. -/
def S.clearFmt (s : S) : S := { s with fmt := clearMarker s.fmt }

/-- The entries to be opened again, the last one in front, and the rest (961-973). -/
def toOpen (s : S) : List Fmt → List Entry × List Fmt
  | .el e :: l => if hasNode s e.node then ([], .el e :: l) else ((e :: (toOpen s l).1), (toOpen s l).2)
  | l => ([], l)

/-- Open the entries again, the earliest first (974-983). -/
def reopen (s : S) : List Entry → R S
  | [] => .ok s
  | e :: l => do
    let s ← insertHtml s e.tag e.attrs
    let x ← cur s
    reopen { s with fmt := .el x :: s.fmt } l

/-- `reconstruct_formatting_element_list` (956-984). -/
def reconstruct (s : S) : R S :=
  reopen { s with fmt := (toOpen s s.fmt).2 } (toOpen s s.fmt).1.reverse

end Verif.Model.HtmlTree
