import Verif.Model.HtmlTreeBase

/-!
# HTML tree construction: the insertion modes

`whatwg/html/parsing/tree_construction_dispatcher.hpp` (cited by line number alone). Every handler takes `re`, which is
`reprocess_token`/`on_emit_token` (1173-1183). The chains of `if constexpr` are matches on the kind of the token.
-/

namespace Verif.Model.HtmlTree
open Verif.Model.HtmlTok (Doctype)

/-- `reprocess_token`. -/
abbrev Re := Tok → S → R S

/-- `is_ascii_white_space`. -/
def ws (c : Nat) : Bool := c == 0x9 || c == 0xA || c == 0xC || c == 0xD || c == 0x20

/-- An ASCII upper case letter in lower case. -/
def lower (c : Nat) : Nat := if 0x41 ≤ c && c ≤ 0x5A then c + 0x20 else c

/-- `insertion_mode` (339-342). -/
def S.to (s : S) (m : Mode) : S := { s with mode := m }

/-- An `assert` on the current node. -/
def assertCur (s : S) (t : K) : R Unit := do
  let e ← cur s
  if e.is t then .ok () else .error .assertion

/-! ## "initial" (1570-1675) -/

/-- `istart_with` (1661-1674). -/
def istart (p : String) (l : List Nat) : Bool := (cps p).isPrefixOf (l.map lower)

/-- `in_quirks_condition` (1614-1643). `tbl` is the look up in `quirks_mode_tbl`. -/
def quirksCond (tbl : List Nat → Bool) (d : Doctype) : Bool :=
  let p := d.pub.map lower
  d.quirks || d.name != cps "html"
    || p == cps "-//w3o//dtd w3 html strict 3.0//en//" || p == cps "-/w3c/dtd html 4.0 transitional/en" || p == cps "html"
    || d.sys.map lower == cps "http://www.ibm.com/data/dtd/v11/ibmxhtml1-transitional.dtd"
    || tbl p
    || (d.sys == [] && (istart "-//w3c//dtd html 4.01 frameset//" d.pub || istart "-//w3c//dtd html 4.01 transitional//" d.pub))

/-- `in_limited_quirks_condition` (1646-1659). -/
def limitedCond (d : Doctype) : Bool :=
  istart "-//w3c//dtd xhtml 1.0 frameset//" d.pub || istart "-//w3c//dtd xhtml 1.0 transitional//" d.pub
    || (d.sys != [] && (istart "-//w3c//dtd html 4.01 frameset//" d.pub || istart "-//w3c//dtd html 4.01 transitional//" d.pub))

/-- Behind all cases of "initial" (1604-1611). -/
def initialElse (re : Re) (tok : Tok) (s : S) : R S := re tok { s with doc := .quirks, mode := .beforeHtml }

/-- `on_initial_insertion_mode` (1570-1612). -/
def onInitial (tbl : List Nat → Bool) (re : Re) (tok : Tok) (s : S) : R S :=
  match tok with
  | .char c => if ws c then .ok s else initialElse re tok s
  | .comment t => commentAt s (.last 0) t
  | .doctype d => do
    let dom ← link (s.dom ++ [⟨.doctype d.name d.pub d.sys, none, []⟩]) (.last 0) s.dom.length
    .ok { s with
      dom := dom
      doc := if quirksCond tbl d then .quirks else if limitedCond d then .limited else s.doc
      mode := .beforeHtml }
  | _ => initialElse re tok s

/-! ## "before html" (1682-1737) -/

/-- Create an `html` element below the document and push it (1706-1714, 1731-1735). -/
def insertRoot (s : S) (attrs : List At) : R S := do
  let (n, s) := create s .html (.k .html) attrs
  let d ← link s.dom (.last 0) n
  .ok { s with dom := d, stack := ⟨n, .html, .k .html, attrs⟩ :: s.stack, mode := .beforeHead }

/-- `AnythingElse` (1730-1736). -/
def beforeHtmlElse (re : Re) (tok : Tok) (s : S) : R S := do
  let s ← insertRoot s []
  re tok s

/-- `on_before_html_insertion_mode` (1682-1737). -/
def onBeforeHtml (re : Re) (tok : Tok) (s : S) : R S :=
  match tok with
  | .doctype _ => .ok s
  | .comment t => commentAt s (.last 0) t
  | .char c => if ws c then .ok s else beforeHtmlElse re tok s
  | .start t attrs _ => if t.is .html then insertRoot s attrs else beforeHtmlElse re tok s
  | .fin t => if t.mem [.head, .body, .html, .br] then beforeHtmlElse re tok s else .ok s
  | .eof => beforeHtmlElse re tok s

/-! ## Start tag `html` (2229-2246) -/

/-- Attributes that the element does not have yet are added (2235-2243, 2282-2290). -/
def mergeAttrs (d : Dom) (n : Nat) (attrs : List At) : Dom :=
  attrs.foldl (fun d a => if (attrsOf d n).any fun b => b.same a then d
    else d.modify n fun nd => match nd.kind with
      | .elem ns t l => { nd with kind := .elem ns t (l ++ [a]) }
      | _ => nd) d

/-- The start tag `html` in `on_in_body_insertion_mode` (2229-2246), to which other modes refer. -/
def htmlStart (s : S) (attrs : List At) : R S :=
  if has s .template then .ok s
  else do
    let e ← front s
    .ok { s with dom := mergeAttrs s.dom e.node attrs }

/-! ## "before head" (1745-1801) -/

/-- Insert a `head` (1775-1778, 1796-1799). -/
def insertHead (s : S) (attrs : List At) : R S := do
  let s ← insertHtml s (.k .head) attrs
  let e ← cur s
  .ok { s with head := some e.node, mode := .inHead }

/-- `AnythingElse` (1795-1800). -/
def beforeHeadElse (re : Re) (tok : Tok) (s : S) : R S := do
  let s ← insertHead s []
  re tok s

/-- `on_before_head_insertion_mode` (1745-1801). -/
def onBeforeHead (re : Re) (tok : Tok) (s : S) : R S :=
  match tok with
  | .char c => if ws c then .ok s else beforeHeadElse re tok s
  | .comment t => insertComment s t
  | .doctype _ => .ok s
  | .start t attrs _ =>
    if t.is .html then htmlStart s attrs
    else if t.is .head then insertHead s attrs
    else beforeHeadElse re tok s
  | .fin t => if t.mem [.head, .body, .html, .br] then beforeHeadElse re tok s else .ok s
  | .eof => beforeHeadElse re tok s

/-! ## "in head" (1809-1987) -/

/-- `parse_generic_raw_text_element`, `parse_generic_raw_rcdata_element` (1468-1486). -/
def rawText (s : S) (st : Sw) (t : Tag) (attrs : List At) : R S := do
  let s ← insertHtml s t attrs
  .ok { s with switch := some st, orig := s.mode, mode := .text }

/-- `AnythingElse` (1982-1986). -/
def inHeadElse (re : Re) (tok : Tok) (s : S) : R S := do
  assertCur s .head
  let s ← pop s
  re tok (s.to .afterHead)

/-- Start tags in `on_in_head_insertion_mode` that do not reprocess (1843-1914, 1938-1946): the character encoding that a `meta` declares is left out, `m_scripting_flag` is false. -/
def inHeadStart (t : Tag) (attrs : List At) (s : S) : R S :=
  if t.mem [.base, .basefont, .bgsound, .link, .metaEl] then insertPop s t attrs
  else if t.is .title then rawText s .rcdata t attrs
  else if t.mem [.noframes, .style] then rawText s .rawtext t attrs
  else if t.is .script then rawText s .scriptData t attrs
  else do
    let s ← insertHtml s t attrs
    .ok { pushMarker s with framesetOk := false, mode := .inTemplate, tmpl := .inTemplate :: s.tmpl }

/-- The end tag `template` (1951-1965). -/
def templateEnd (s : S) : R S :=
  if has s .template then do
    let s := { s with stack := impliedAll s.stack }
    let _ ← cur s
    let s := (s.popUntil (·.is .template)).clearFmt
    match s.tmpl with
    | [] => .error .empty
    | _ :: l => reset { s with tmpl := l }
  else .ok s

/-- The start tags that "in head" handles and to which other modes refer. -/
def headTags : List K := [.base, .basefont, .bgsound, .link, .metaEl, .noframes, .script, .style, .template, .title]

/-- `on_in_head_insertion_mode` (1809-1987). -/
def onInHead (re : Re) (tok : Tok) (s : S) : R S :=
  match tok with
  | .char c => if ws c then insertChar s c else inHeadElse re tok s
  | .comment t => insertComment s t
  | .doctype _ => .ok s
  | .start t attrs _ =>
    if t.is .html then htmlStart s attrs
    else if t.mem headTags then inHeadStart t attrs s
    else if t.is .noscript then do
      let s ← insertHtml s t attrs
      .ok (s.to .inHeadNoscript)
    else if t.is .head then .ok s
    else inHeadElse re tok s
  | .fin t =>
    if t.is .head then do
      assertCur s .head
      let s ← pop s
      .ok (s.to .afterHead)
    else if t.mem [.body, .html, .br] then inHeadElse re tok s
    else if t.is .template then templateEnd s
    else .ok s
  | .eof => inHeadElse re tok s

/-! ## "in head noscript" (1995-2085) -/

/-- Pop the `noscript` (2019-2022, 2080-2083). -/
def popNoscript (s : S) : R S := do
  assertCur s .noscript
  let s ← pop s
  assertCur s .head
  .ok (s.to .inHead)

/-- `AnythingElse` (2078-2084). -/
def noscriptElse (re : Re) (tok : Tok) (s : S) : R S := do
  let s ← popNoscript s
  re tok s

/-- `on_in_head_noscript_insertion_mode` (1995-2085). -/
def onInHeadNoscript (re : Re) (tok : Tok) (s : S) : R S :=
  match tok with
  | .doctype _ => .ok s
  | .char c => if ws c then onInHead re tok s else noscriptElse re tok s
  | .comment _ => onInHead re tok s
  | .start t attrs _ =>
    if t.is .html then htmlStart s attrs
    else if t.mem [.basefont, .bgsound, .link, .metaEl, .noframes, .style] then onInHead re tok s
    else if t.mem [.head, .noscript] then .ok s
    else noscriptElse re tok s
  | .fin t =>
    if t.is .noscript then popNoscript s
    else if t.is .br then noscriptElse re tok s
    else .ok s
  | .eof => noscriptElse re tok s

/-! ## "after head" (2093-2182) -/

/-- `AnythingElse` (2177-2181). -/
def afterHeadElse (re : Re) (tok : Tok) (s : S) : R S := do
  let s ← insertHtml s (.k .body) []
  re tok (s.to .inBody)

/-- `on_after_head_insertion_mode` (2093-2182). -/
def onAfterHead (re : Re) (tok : Tok) (s : S) : R S :=
  match tok with
  | .char c => if ws c then insertChar s c else afterHeadElse re tok s
  | .comment t => insertComment s t
  | .doctype _ => .ok s
  | .start t attrs _ =>
    if t.is .html then htmlStart s attrs
    else if t.is .body then do
      let s ← insertHtml s t attrs
      .ok { s with framesetOk := false, mode := .inBody }
    else if t.is .frameset then do
      let s ← insertHtml s t attrs
      .ok (s.to .inFrameset)
    else if t.mem headTags then
      match s.head with
      | none => .error .null
      | some h => do
        let s ← inHeadStart t attrs { s with stack := ⟨h, .html, .k .head, []⟩ :: s.stack }
        .ok { s with stack := s.stack.filter fun e => e.node != h }
    else if t.is .head then .ok s
    else afterHeadElse re tok s
  | .fin t =>
    if t.is .template then templateEnd s
    else if t.mem [.body, .html, .br] then afterHeadElse re tok s
    else .ok s
  | .eof => afterHeadElse re tok s

/-! ## "in body" (2190-3112) -/

/-- `close_p_element` (3114-3119). -/
def closeP (s : S) : R S := do
  let s := s.implied (·.tag.is .p)
  let _ ← cur s
  .ok (s.popUntil (·.is .p))

/-- `if (in_specific_scope(button_scope, tag_name::P)) close_p_element();`. -/
def closePIn (s : S) : R S := do
  if ← inScope buttonScope (·.is .p) s.stack then closeP s else .ok s

/-- `stop_parsing` (5033-5038). -/
def stopParsing (s : S) : S := { s with stack := [] }

/-- End of file in `on_in_template_insertion_mode` (4429-4443). -/
def templateEof (re : Re) (s : S) : R S :=
  if has s .template then do
    let s := (s.popUntil (·.is .template)).clearFmt
    match s.tmpl with
    | [] => .error .empty
    | _ :: l => do
      let s ← reset { s with tmpl := l }
      re .eof s
  else .ok (stopParsing s)

/-- The element at `m_stack[1]`, of which there is none when the size is 1; the index is not checked when the size is 0. -/
def second (s : S) : R (Option Entry) :=
  match s.stack.reverse with
  | [] => .error .empty
  | [_] => .ok none
  | _ :: e :: _ => .ok (some e)

/-- Pop until the current node is `html` (2307). -/
def popToHtml : List Entry → R (List Entry)
  | [] => .error .empty
  | e :: l => if e.is .html then .ok (e :: l) else popToHtml l

/-- The loop of the start tag `li` (2477-2497). `true` says that the token has been handled; otherwise it goes on behind. -/
def liStart (s : S) (t : Tag) (attrs : List At) : R S :=
  match s.stack with
  | [] => .ok s
  | e :: _ =>
    if e.is .li then .ok ((s.implied (·.tag.is .li)).popUntil (·.is .li))
    else if e.isIn [.address, .div, .p] then .ok s
    else do
      let s ← closePIn s
      insertHtml s t attrs

/-- The `li` has been handled in its loop (2495). -/
def liDone (s : S) : Bool :=
  match s.stack with
  | [] => false
  | e :: _ => !e.isIn [.li, .address, .div, .p]

/-- The loop of the start tags `dd` and `dt` (2507-2533). -/
def ddLoop (s : S) : List Entry → R S
  | [] => .error .empty
  | e :: l =>
    if e.is .dd then do
      let s := s.implied (·.tag.is .dd)
      let _ ← cur s
      .ok (s.popUntil (·.is .dd))
    else if e.is .dt then do
      let s := s.implied (·.tag.is .dt)
      let _ ← cur s
      .ok (s.popUntil (·.is .dt))
    else if special e && !e.isIn [.address, .div, .p] then .ok s
    else ddLoop s l

/-- `AnyOtherEndTag` (3087-3111). -/
def otherEnd (s : S) (t : Tag) : List Entry → R S
  | [] => .error .empty
  | e :: l =>
    if e.isTag t then do
      let s := s.implied (·.isTag t)
      let _ ← cur s
      .ok (s.popUntil (·.node == e.node))
    else if special e then .ok s
    else otherEnd s t l

/-! ### The adoption agency algorithm (3128-3297) -/

/-- The iterator `bookmark` (3139): the end, the entry of a node, a marker (with the number of markers before
it), or an erased entry. -/
inductive Bookmark
  | fin
  | entry (n : Nat)
  | mark (k : Nat)
  | stale
deriving DecidableEq, Repr

/-- The number of markers. -/
def markers (l : List Fmt) : Nat := l.countP (· == .marker)

/-- The entry in front of which in the list is the entry of `n` (`std::next`). -/
def nextFmt (n : Nat) : List Fmt → Bookmark → Bookmark
  | [], _ => .fin
  | .marker :: l, _ => nextFmt n l (.mark (markers l))
  | .el e :: l, b => if e.node = n then b else nextFmt n l (.entry e.node)

/-- Insert an entry before the bookmark. -/
def insertFmt (x : Entry) : Bookmark → List Fmt → R (List Fmt)
  | .fin, l => .ok (.el x :: l)
  | .stale, _ => .error .stale
  | .entry _, [] => .error .stale
  | .mark _, [] => .error .stale
  | .mark k, .marker :: l =>
    if markers l = k then .ok (.marker :: .el x :: l)
    else do
      let l ← insertFmt x (.mark k) l
      .ok (.marker :: l)
  | .mark k, .el e :: l => do
    let l ← insertFmt x (.mark k) l
    .ok (.el e :: l)
  | .entry n, .marker :: l => do
    let l ← insertFmt x (.entry n) l
    .ok (.marker :: l)
  | .entry n, .el e :: l =>
    if e.node = n then .ok (.el e :: .el x :: l)
    else do
      let l ← insertFmt x (.entry n) l
      .ok (.el e :: l)

/-- Replace the node of an entry of the list. -/
def replaceFmt (old new : Nat) (l : List Fmt) : List Fmt :=
  l.map fun f => match f with
    | .el e => if e.node = old then .el { e with node := new } else f
    | .marker => .marker

/-- The inner loop (3223-3267). The argument is the list of the entries of the stack between the furthest block and the
formatting element, downwards: these are the values of `node` in turn, as only entries already visited are removed. -/
def innerLoop (block : Nat) : List Entry → Nat → Nat → Bookmark → S → R (Nat × Bookmark × S)
  | [], _, last, bm, s => .ok (last, bm, s)
  | e :: l, i, last, bm, s =>
    let gone := 3 < i && inFmt e.node s.fmt
    let bm := if gone && bm == .entry e.node then .stale else bm
    let s := if gone then { s with fmt := dropFmt e.node s.fmt } else s
    if inFmt e.node s.fmt then do
      let (n, s) := create s .html e.tag e.attrs
      let s := { s with
        stack := s.stack.map fun (x : Entry) => if x.node = e.node then { x with node := n } else x
        fmt := replaceFmt e.node n s.fmt }
      let bm := if bm == .entry e.node then .entry n else bm
      let bm := if last = block then nextFmt n s.fmt .fin else bm
      let d ← moveNode s.dom (.last n) last
      innerLoop block l (i + 1) n bm { s with dom := d }
    else do
      let s ← removeNode s e.node
      innerLoop block l (i + 1) last bm s

/-- Move children to the end of an element (3275-3282). -/
def moveKids (el : Nat) : List Nat → Dom → R Dom
  | [], d => .ok d
  | x :: l, d => do
    let d ← moveNode d (.last el) x
    moveKids el l d

/-- The last entry of the formatting list with a name (3164-3178). -/
def findFmt (t : Tag) : List Fmt → Option Entry
  | .el e :: l => if e.tag = t then some e else findFmt t l
  | _ => none

/-- The entries above the entry of a node, the lowest in front (3197-3210). -/
def above (n : Nat) (l : List Entry) : List Entry := (l.reverse.dropWhile fun e => e.node != n).drop 1

/-- Insert an entry just above that of a node (3290). -/
def insertAbove (n : Nat) (x : Entry) : List Entry → R (List Entry)
  | [] => .error .assertion
  | e :: l => if e.node = n then .ok (x :: e :: l) else do
    let l ← insertAbove n x l
    .ok (e :: l)

/-- Steps 12 to 20 (3218-3291): `fe` is the formatting element, `fb` the furthest block. -/
def adopt (s : S) (fe fb : Entry) : R S :=
  match s.stack.dropWhile fun e => e.node != fe.node with
  | _ :: anc :: _ => do
    let mid := ((above fe.node s.stack).takeWhile fun e => e.node != fb.node).reverse
    let bm := nextFmt fe.node s.fmt .fin
    let (last, bm, s) ← innerLoop fb.node mid 1 fb.node bm s
    let pl ← place s anc
    let d ← moveNode s.dom pl last
    let (n, s) := create { s with dom := d } .html fe.tag fe.attrs
    let d ← moveKids n (kidsOf s.dom fb.node) s.dom
    let d ← link d (.last fb.node) n
    let s := { s with dom := d }
    let bm := if bm == .entry fe.node then .stale else bm
    let x : Entry := ⟨n, .html, fe.tag, fe.attrs⟩
    let f ← insertFmt x bm (dropFmt fe.node s.fmt)
    let s ← removeNode { s with fmt := f } fe.node
    let st ← insertAbove fb.node x s.stack
    .ok { s with stack := st }
  | _ => .error .empty

/-- The outer loop (3159-3294). `true` is for "any other end tag". -/
def outerLoop (t : Tag) : Nat → S → R (Bool × S)
  | 0, s => .ok (false, s)
  | k + 1, s =>
    match findFmt t s.fmt with
    | none => .ok (true, s)
    | some fe =>
      if !hasNode s fe.node then .ok (false, { s with fmt := dropFmt fe.node s.fmt })
      else do
        if ← inScope defaultScope (·.node == fe.node) s.stack then
          let _ ← cur s
          match (above fe.node s.stack).find? special with
          | none =>
            let s := s.popUntil (·.node == fe.node)
            .ok (false, { s with fmt := dropFmt fe.node s.fmt })
          | some fb => do
            let s ← adopt s ((s.stack.find? fun e => e.node == fe.node).getD fe) fb
            outerLoop t k s
        else .ok (false, s)

/-- `run_adoption_agency_algorithm` (3128-3297). -/
def adoption (s : S) (t : Tag) : R (Bool × S) := do
  let e ← cur s
  if e.isTag t && !inFmt e.node s.fmt then do
    let s ← pop s
    .ok (false, s)
  else outerLoop t 8 s

/-- Insert a formatting element and push it to the list. -/
def insertFmtEl (s : S) (t : Tag) (attrs : List At) : R S := do
  let s ← insertHtml s t attrs
  let e ← cur s
  .ok (pushFmt s e)

/-- An `input` whose `type` is `hidden` (2854-2857, 3506-3509). -/
def hiddenInput (attrs : List At) : Bool :=
  match attrs.find? fun a => a.name == cps "type" with
  | some a => a.val.map lower == cps "hidden"
  | none => false

/-- Start tags that close a `p` and insert an element (2403-2408). -/
def blockTags : List K :=
  [.address, .article, .aside, .blockquote, .center, .details, .dialog, .dir, .div, .dl, .fieldset, .figcaption, .figure, .footer,
   .header, .hgroup, .main, .menu, .nav, .ol, .p, .sectionEl, .summary, .ul]

/-- End tags that pop the element (2573-2579). -/
def blockEnds : List K :=
  [.address, .article, .aside, .blockquote, .button, .center, .details, .dialog, .dir, .div, .dl, .fieldset, .figcaption, .figure,
   .footer, .header, .hgroup, .listing, .main, .menu, .nav, .ol, .pre, .sectionEl, .summary, .ul]

/-- The headings (2421). -/
def headings : List K := [.h1, .h2, .h3, .h4, .h5, .h6]

/-- Formatting elements besides `a` and `nobr` (2725-2727). -/
def fmtTags : List K := [.b, .big, .code, .em, .font, .i, .s, .small, .strike, .strong, .tt, .u]

/-- The second part of the start tags in "in body" (2690-3085). -/
def bodyStart2 (re : Re) (t : Tag) (attrs : List At) (self : Bool) (s : S) : R S :=
  if t.is .a then
    match (behindMarker s.fmt).find? fun e => e.tag.is .a with
    | some x => do
      let (other, s) ← adoption s t
      if other then .ok s
      else do
        let s := { s with fmt := dropFmt x.node s.fmt }
        let s ← if hasNode s x.node then removeNode s x.node else .ok s
        let s ← reconstruct s
        insertFmtEl s t attrs
    | none => do
      let s ← reconstruct s
      insertFmtEl s t attrs
  else if t.mem fmtTags then do
    let s ← reconstruct s
    insertFmtEl s t attrs
  else if t.is .nobr then do
    let s ← reconstruct s
    if ← inScope defaultScope (·.is .nobr) s.stack then
      let (other, s) ← adoption s t
      if other then .ok s
      else do
        let s ← reconstruct s
        insertFmtEl s t attrs
    else insertFmtEl s t attrs
  else if t.mem [.applet, .marquee, .object] then do
    let s ← reconstruct s
    let s ← insertHtml s t attrs
    .ok { pushMarker s with framesetOk := false }
  else if t.is .table then do
    let s ← if s.doc ≠ .quirks then closePIn s else .ok s
    let s ← insertHtml s t attrs
    .ok { s with framesetOk := false, mode := .inTable }
  else if t.mem [.area, .br, .embed, .img, .keygen, .wbr] then do
    let s ← reconstruct s
    let s ← insertPop s t attrs
    .ok { s with framesetOk := false }
  else if t.is .input then do
    let s ← reconstruct s
    let s ← insertPop s t attrs
    .ok (if hiddenInput attrs then s else { s with framesetOk := false })
  else if t.mem [.param, .source, .track] then insertPop s t attrs
  else if t.is .hr then do
    let s ← closePIn s
    let s ← insertPop s t attrs
    .ok { s with framesetOk := false }
  else if t.is .image then re (.start (.k .img) attrs self) s
  else if t.is .textarea then do
    let s ← insertHtml s t attrs
    .ok { s with omitLf := true, switch := some .rcdata, orig := s.mode, framesetOk := false, mode := .text }
  else if t.is .xmp then do
    let s ← closePIn s
    let s ← reconstruct s
    rawText { s with framesetOk := false } .rawtext t attrs
  else if t.is .iframe then rawText { s with framesetOk := false } .rawtext t attrs
  else if t.is .noembed then rawText s .rawtext t attrs
  else if t.is .select then do
    let s ← reconstruct s
    let s ← insertHtml s t attrs
    .ok { s with
      framesetOk := false
      mode := if s.mode = .inTable ∨ s.mode = .inCaption ∨ s.mode = .inTableBody ∨ s.mode = .inRow ∨ s.mode = .inCell
        then .inSelectInTable else .inSelect }
  else if t.mem [.optgroup, .option] then do
    let e ← cur s
    let s ← if e.is .option then pop s else .ok s
    let s ← reconstruct s
    insertHtml s t attrs
  else if t.mem [.rb, .rtc] then do
    if ← inScope defaultScope (·.is .ruby) s.stack then
      let s := s.implied
      let _ ← cur s
      insertHtml s t attrs
    else insertHtml s t attrs
  else if t.mem [.rp, .rt] then do
    if ← inScope defaultScope (·.is .ruby) s.stack then
      let s := s.implied (·.tag.is .rtc)
      let _ ← cur s
      insertHtml s t attrs
    else insertHtml s t attrs
  else if t.mem [.math, .svg] then do
    let s ← reconstruct s
    let attrs := adjustForeign (adjustMath attrs)
    let s ← insertForeign (keepSlots s attrs) (if t.is .math then .mathml else .svg) t attrs
    if self then pop s else .ok s
  else if t.mem [.caption, .col, .colgroup, .frame, .head, .tbody, .td, .tfoot, .th, .thead, .tr] then .ok s
  else do
    let s ← reconstruct s
    insertHtml s t attrs

/-- The start tags in "in body" (2229-2567). -/
def bodyStart (re : Re) (t : Tag) (attrs : List At) (self : Bool) (s : S) : R S :=
  if t.is .html then htmlStart s attrs
  else if t.mem headTags then inHeadStart t attrs s
  else if t.is .body then do
    match ← second s with
    | none => .ok s
    | some e =>
      if e.is .body || has s .template then .ok s
      else .ok { s with framesetOk := false, dom := mergeAttrs s.dom e.node attrs }
  else if t.is .frameset then do
    match ← second s with
    | none => .ok s
    | some e =>
      if e.is .body || !s.framesetOk then .ok s
      else
        match parentOf s.dom e.node with
        | none => .error .null
        | some h =>
          if parentOf s.dom h ≠ some 0 then .error .freed
          else do
            let st ← popToHtml s.stack
            let s ← insertHtml { s with stack := st } t attrs
            .ok (s.to .inFrameset)
  else if t.mem blockTags then do
    let s ← closePIn s
    insertHtml s t attrs
  else if t.mem headings then do
    let s ← closePIn s
    let e ← cur s
    let s ← if e.isIn headings then pop s else .ok s
    insertHtml s t attrs
  else if t.mem [.pre, .listing] then do
    let s ← closePIn s
    let s ← insertHtml s t attrs
    .ok { s with omitLf := true, framesetOk := false }
  else if t.is .form then
    if s.form.isSome && !has s .template then .ok s
    else do
      let s ← closePIn s
      let s ← insertHtml s t attrs
      let e ← cur s
      .ok (if has s .template then s else { s with form := some e.node })
  else if t.is .li then do
    let s := { s with framesetOk := false }
    let s' ← liStart s t attrs
    if liDone s then .ok s'
    else bodyStart2 re t attrs self s'
  else if t.mem [.dd, .dt] then do
    let s := { s with framesetOk := false }
    let s ← ddLoop s s.stack
    let s ← closePIn s
    insertHtml s t attrs
  else if t.is .plaintext then do
    let s ← closePIn s
    let s ← insertHtml s t attrs
    .ok { s with switch := some .plaintext }
  else if t.is .button then do
    let s ← if ← inScope defaultScope (·.is .p) s.stack then .ok (s.implied.popUntil (·.is .button)) else .ok s
    let s ← reconstruct s
    let s ← insertHtml s t attrs
    .ok { s with framesetOk := false }
  else bodyStart2 re t attrs self s

/-- The end tags in "in body" (2261-2827, 3087-3111). -/
def bodyEnd (re : Re) (t : Tag) (s : S) : R S :=
  if t.is .template then templateEnd s
  else if t.is .body then do
    if ← inScope defaultScope (·.is .body) s.stack then .ok (s.to .afterBody) else .ok s
  else if t.is .html then do
    if ← inScope defaultScope (·.is .body) s.stack then re (.fin t) (s.to .afterBody) else .ok s
  else if t.mem blockEnds then do
    if ← inScope defaultScope (·.isTag t) s.stack then
      let s := s.implied
      let _ ← cur s
      .ok (s.popUntil (·.isTag t))
    else .ok s
  else if t.is .form then
    if has s .template then do
      if ← inScope defaultScope (·.is .form) s.stack then
        let s := s.implied
        let _ ← cur s
        .ok (s.popUntil (·.is .form))
      else .ok s
    else
      match s.form with
      | none => .ok s
      | some n => do
        let s := { s with form := none }
        if ← inScope defaultScope (·.node == n) s.stack then
          let s := s.implied
          let _ ← cur s
          removeNode s n
        else .ok s
  else if t.is .p then do
    let s ← if ← inScope buttonScope (·.is .p) s.stack then .ok s else insertHtml s (.k .p) []
    closeP s
  else if t.is .li then do
    if ← inScope listScope (·.is .li) s.stack then
      let s := s.implied (·.tag.is .li)
      let _ ← cur s
      .ok (s.popUntil (·.is .li))
    else .ok s
  else if t.mem [.dd, .dt] then do
    if ← inScope defaultScope (·.isTag t) s.stack then
      let s := s.implied (·.isTag t)
      let _ ← cur s
      let s := s.popUntil (·.isTag t)
      otherEnd s t s.stack
    else .ok s
  else if t.mem headings then do
    if ← inScope defaultScope (·.isIn headings) s.stack then
      let s := s.implied
      let _ ← cur s
      .ok (s.popUntil (·.isIn headings))
    else .ok s
  else if t.mem (.a :: .nobr :: fmtTags) then do
    let (other, s) ← adoption s t
    if other then otherEnd s t s.stack else .ok s
  else if t.mem [.applet, .marquee, .object] then do
    if ← inScope defaultScope (·.isTag t) s.stack then
      let s := s.implied
      let _ ← cur s
      .ok (s.popUntil (·.isTag t)).clearFmt
    else .ok s
  else if t.is .br then re (.start (.k .br) [] false) s
  else otherEnd s t s.stack

/-- `on_in_body_insertion_mode` (2190-3112). -/
def onInBody (re : Re) (tok : Tok) (s : S) : R S :=
  match tok with
  | .char c =>
    if c = 0 then .ok s
    else do
      let s ← reconstruct s
      let s ← insertChar s c
      .ok (if ws c then s else { s with framesetOk := false })
  | .comment t => insertComment s t
  | .doctype _ => .ok s
  | .start t attrs self => bodyStart re t attrs self s
  | .fin t => bodyEnd re t s
  | .eof => if s.tmpl ≠ [] then templateEof re s else .ok (stopParsing s)

/-! ## "text" (3305-3341) -/

/-- `on_text_insertion_mode` (3305-3341). Start tags, comments and document types do nothing. -/
def onText (re : Re) (tok : Tok) (s : S) : R S :=
  match tok with
  | .char c => insertChar s c
  | .eof => do
    let _ ← cur s
    let s ← pop s
    re tok (s.to s.orig)
  | .fin _ => do
    let s ← pop s
    .ok (s.to s.orig)
  | _ => .ok s

/-! ## "in table" (3349-3563) -/

/-- `clear_stack_back_to_table_context` (3548-3563). -/
def toTable : List Entry → List Entry
  | [] => []
  | e :: l => if e.ns ≠ .html then e :: l else if e.tag.mem [.table, .template, .html] then e :: l else toTable l

/-- `clear_stack_back_to_table_context` on the state. -/
def S.toTable (s : S) : S := { s with stack := HtmlTree.toTable s.stack }

/-- `AnythingElse` (3538-3542). -/
def inTableElse (re : Re) (tok : Tok) (s : S) : R S := do
  let s ← onInBody re tok { s with foster := true }
  .ok { s with foster := false }

/-- Start tags in `on_in_table_insertion_mode` (3382-3529). -/
def tableStart (re : Re) (t : Tag) (attrs : List At) (self : Bool) (s : S) : R S :=
  if t.is .caption then do
    let s ← insertHtml (pushMarker s.toTable) t attrs
    .ok (s.to .inCaption)
  else if t.is .colgroup then do
    let s ← insertHtml s.toTable t attrs
    .ok (s.to .inColumnGroup)
  else if t.is .col then do
    let s ← insertHtml s.toTable (.k .colgroup) []
    re (.start t attrs self) (s.to .inColumnGroup)
  else if t.mem [.tbody, .tfoot, .thead] then do
    let s ← insertHtml s.toTable t attrs
    .ok (s.to .inTableBody)
  else if t.mem [.td, .th, .tr] then do
    let s ← insertHtml s.toTable (.k .tbody) []
    re (.start t attrs self) (s.to .inTableBody)
  else if t.is .table then do
    if ← inScope tableScope (·.is .table) s.stack then
      let s ← reset (s.popUntil (·.is .table))
      re (.start t attrs self) s
    else .ok s
  else if t.mem [.style, .script, .template] then inHeadStart t attrs s
  else if t.is .input && hiddenInput attrs then insertPop s t attrs
  else if t.is .form then
    if has s .template || s.form.isSome then .ok s
    else do
      let s ← insertHtml s t attrs
      let e ← cur s
      pop { s with form := some e.node }
  else inTableElse re (.start t attrs self) s

/-- `on_in_table_insertion_mode` (3349-3543). The end tag `table` goes on to the last case behind its own. -/
def onInTable (re : Re) (tok : Tok) (s : S) : R S :=
  match tok with
  | .char c => do
    let e ← cur s
    if e.isIn [.table, .tbody, .tfoot, .thead, .tr] then
      re tok { s with pending := [], orig := s.mode, mode := .inTableText }
    else inTableElse re (.char c) s
  | .comment t => insertComment s t
  | .doctype _ => .ok s
  | .start t attrs self => tableStart re t attrs self s
  | .fin t =>
    if t.is .table then do
      if ← inScope tableScope (·.is .table) s.stack then
        let s ← reset (s.popUntil (·.is .table))
        inTableElse re tok s
      else .ok s
    else if t.mem [.body, .caption, .col, .colgroup, .html, .tbody, .td, .tfoot, .th, .thead, .tr] then .ok s
    else inTableElse re tok s
  | .eof => onInBody re tok s

/-! ## "in table text" (3570-3614) -/

/-- Process the characters with foster parenting (3599-3606). -/
def fosterChars (re : Re) : List Nat → S → R S
  | [], s => .ok s
  | c :: l, s => do
    let s ← inTableElse re (.char c) s
    fosterChars re l s

/-- Insert the characters (3610). -/
def insertChars : List Nat → S → R S
  | [], s => .ok s
  | c :: l, s => do
    let s ← insertChar s c
    insertChars l s

/-- `on_in_table_text_insertion_mode` (3570-3614). -/
def onInTableText (re : Re) (tok : Tok) (s : S) : R S :=
  match tok with
  | .char c => if c = 0 then .ok s else .ok { s with pending := s.pending ++ [c] }
  | _ => do
    let s ← if s.pending.any fun c => !ws c then fosterChars re s.pending s else insertChars s.pending s
    re tok (s.to s.orig)

/-! ## "in caption" (3622-3691) -/

/-- Close the caption (3636-3640, 3668-3672). -/
def closeCaption (s : S) : R S := do
  let s := s.implied
  let _ ← cur s
  .ok ((s.popUntil (·.is .caption)).clearFmt.to .inTable)

/-- Close the caption and reprocess (3661-3674). -/
def captionElse (re : Re) (tok : Tok) (s : S) : R S := do
  if ← inScope tableScope (·.is .caption) s.stack then
    let s ← closeCaption s
    re tok s
  else .ok s

/-- `on_in_caption_insertion_mode` (3622-3691). -/
def onInCaption (re : Re) (tok : Tok) (s : S) : R S :=
  match tok with
  | .start t _ _ =>
    if t.mem [.caption, .col, .colgroup, .tbody, .td, .tfoot, .th, .thead, .tr] then captionElse re tok s else onInBody re tok s
  | .fin t =>
    if t.is .caption then do
      if ← inScope tableScope (·.is .caption) s.stack then closeCaption s else .ok s
    else if t.is .table then captionElse re tok s
    else if t.mem [.body, .col, .colgroup, .html, .tbody, .td, .tfoot, .th, .thead] then .ok s
    else onInBody re tok s
  | _ => onInBody re tok s

/-! ## "in column group" (3699-3789) -/

/-- Behind all cases (3781-3788). -/
def colgroupElse (re : Re) (tok : Tok) (s : S) : R S := do
  let e ← cur s
  if e.is .colgroup then
    let s ← pop s
    re tok (s.to .inTable)
  else .ok s

/-- `on_in_column_group_insertion_mode` (3699-3789). -/
def onInColumnGroup (re : Re) (tok : Tok) (s : S) : R S :=
  match tok with
  | .char c => if ws c then insertChar s c else colgroupElse re tok s
  | .comment t => insertComment s t
  | .doctype _ => .ok s
  | .start t attrs _ =>
    if t.is .html then htmlStart s attrs
    else if t.is .col then insertPop s t attrs
    else if t.is .template then inHeadStart t attrs s
    else colgroupElse re tok s
  | .fin t =>
    if t.is .colgroup then do
      let e ← cur s
      if e.is .colgroup then
        let s ← pop s
        .ok (s.to .inTable)
      else .ok s
    else if t.is .col then .ok s
    else if t.is .template then templateEnd s
    else colgroupElse re tok s
  | .eof => onInBody re tok s

/-! ## "in table body" (3797-3908) -/

/-- `clear_stack_back_to_table_body_context` (3892-3908), `clear_stack_back_to_table_row_context` (4016-4029). -/
def backTo (l : List K) : List Entry → R (List Entry)
  | [] => .error .empty
  | e :: st => if e.isIn l then .ok (e :: st) else backTo l st

/-- The elements of `clear_stack_back_to_table_body_context` (3899). -/
def bodyContext : List K := [.tbody, .tfoot, .thead, .template, .html]

/-- The elements of `clear_stack_back_to_table_row_context` (4021-4023). -/
def rowContext : List K := [.tr, .table, .html]

/-- `backTo` on the state. -/
def S.backTo (s : S) (l : List K) : R S := do
  let st ← HtmlTree.backTo l s.stack
  .ok { s with stack := st }

/-- Leave the table body and reprocess (3862-3874). -/
def leaveBody (re : Re) (tok : Tok) (s : S) : R S := do
  if ← inScope tableScope (·.isIn [.tbody, .thead, .tfoot]) s.stack then
    let s ← s.backTo bodyContext
    let s ← pop s
    re tok (s.to .inTable)
  else .ok s

/-- `on_in_table_body_insertion_mode` (3797-3890). -/
def onInTableBody (re : Re) (tok : Tok) (s : S) : R S :=
  match tok with
  | .start t attrs _ =>
    if t.is .tr then do
      let s ← s.backTo bodyContext
      let s ← insertHtml s t attrs
      .ok (s.to .inRow)
    else if t.mem [.th, .td] then do
      let s ← s.backTo bodyContext
      let s ← insertHtml s (.k .tr) []
      re tok (s.to .inRow)
    else if t.mem [.caption, .col, .colgroup, .tbody, .tfoot, .thead] then leaveBody re tok s
    else onInTable re tok s
  | .fin t =>
    if t.mem [.tbody, .tfoot, .thead] then do
      if ← inScope tableScope (·.isTag t) s.stack then
        let s ← s.backTo bodyContext
        let s ← pop s
        .ok (s.to .inTable)
      else .ok s
    else if t.is .table then leaveBody re tok s
    else if t.mem [.body, .caption, .col, .colgroup, .html, .td, .th, .tr] then .ok s
    else onInTable re tok s
  | _ => onInTable re tok s

/-! ## "in row" (3914-4029) -/

/-- Back to the row, which is popped (3940-3943, 3971-3974, 3991-3994). -/
def popRow (s : S) : R S := do
  let s ← s.backTo rowContext
  assertCur s .tr
  let s ← pop s
  .ok (s.to .inTableBody)

/-- Leave the row and reprocess (3964-3977). -/
def leaveRow (re : Re) (tok : Tok) (s : S) : R S := do
  if ← inScope tableScope (·.is .tr) s.stack then
    let s ← popRow s
    re tok s
  else .ok s

/-- `on_in_row_insertion_mode` (3914-4014). -/
def onInRow (re : Re) (tok : Tok) (s : S) : R S :=
  match tok with
  | .start t attrs _ =>
    if t.mem [.th, .td] then do
      let s ← s.backTo rowContext
      let s ← insertHtml s t attrs
      .ok (pushMarker (s.to .inCell))
    else if t.mem [.caption, .col, .colgroup, .tbody, .tfoot, .thead, .tr] then leaveRow re tok s
    else onInTable re tok s
  | .fin t =>
    if t.is .tr then do
      if ← inScope tableScope (·.is .tr) s.stack then popRow s else .ok s
    else if t.is .table then leaveRow re tok s
    else if t.mem [.tbody, .tfoot, .thead] then do
      if ← inScope tableScope (·.isTag t) s.stack then
        let _ ← inScope tableScope (·.is .tr) s.stack
        let s ← popRow s
        re tok s
      else .ok s
    else if t.mem [.body, .caption, .col, .colgroup, .html, .td, .th] then .ok s
    else onInTable re tok s
  | _ => onInTable re tok s

/-! ## "in cell" (4035-4118) -/

/-- `close_cell` (4108-4116). -/
def closeCell (s : S) : R S := do
  let s := s.implied
  let _ ← cur s
  .ok ((s.popUntil (·.isIn [.td, .th])).clearFmt.to .inRow)

/-- `on_in_cell_insertion_mode` (4035-4106). -/
def onInCell (re : Re) (tok : Tok) (s : S) : R S :=
  match tok with
  | .start t _ _ =>
    if t.mem [.caption, .col, .colgroup, .tbody, .td, .tfoot, .th, .thead, .tr] then do
      if ← inScope tableScope (·.isIn [.td, .th]) s.stack then
        let s ← closeCell s
        re tok s
      else .ok s
    else onInBody re tok s
  | .fin t =>
    if t.mem [.td, .th] then do
      if ← inScope tableScope (·.isTag t) s.stack then
        let s := s.implied
        let _ ← cur s
        .ok ((s.popUntil (·.isTag t)).clearFmt.to .inRow)
      else .ok s
    else if t.mem [.body, .caption, .col, .colgroup, .html] then .ok s
    else if t.mem [.table, .tbody, .tfoot, .thead, .tr] then do
      if ← inScope tableScope (·.isTag t) s.stack then
        let s ← closeCell s
        re tok s
      else .ok s
    else onInBody re tok s
  | _ => onInBody re tok s

/-! ## "in select" (4124-4275), "in select in table" (4281-4320) -/

/-- Close the `select` (4217-4218, 4229-4230, 4242-4243, 4291-4292, 4308-4309). -/
def closeSelect (s : S) : R S := reset (s.popUntil (·.is .select))

/-- Start tags in `on_in_select_insertion_mode` (4156-4264). -/
def selectStart (re : Re) (t : Tag) (attrs : List At) (self : Bool) (s : S) : R S :=
  if t.is .html then htmlStart s attrs
  else if t.is .option then do
    let e ← cur s
    let s ← if e.is .option then pop s else .ok s
    insertHtml s t attrs
  else if t.is .optgroup then do
    let e ← cur s
    let s ← if e.is .option then pop s else .ok s
    let e ← cur s
    let s ← if e.is .optgroup then pop s else .ok s
    insertHtml s t attrs
  else if t.is .select then do
    if ← inScope selectScope (·.is .select) s.stack then closeSelect s else .ok s
  else if t.mem [.input, .keygen, .textarea] then do
    if ← inScope selectScope (·.is .select) s.stack then
      let s ← closeSelect s
      re (.start t attrs self) s
    else .ok s
  else if t.mem [.script, .template] then inHeadStart t attrs s
  else .ok s

/-- End tags in `on_in_select_insertion_mode` (4186-4264). -/
def selectEnd (t : Tag) (s : S) : R S :=
  if t.is .optgroup then do
    let e ← cur s
    let s ← if e.is .option then
        match s.stack with
        | _ :: e2 :: _ => if e2.is .optgroup then pop s else .ok s
        | _ => .error .empty
      else .ok s
    let e ← cur s
    if e.is .optgroup then pop s else .ok s
  else if t.is .option then do
    let e ← cur s
    if e.is .option then pop s else .ok s
  else if t.is .select then do
    if ← inScope selectScope (·.is .select) s.stack then closeSelect s else .ok s
  else if t.is .template then templateEnd s
  else .ok s

/-- `on_in_select_insertion_mode` (4124-4275). -/
def onInSelect (re : Re) (tok : Tok) (s : S) : R S :=
  match tok with
  | .char c => if c = 0 then .ok s else insertChar s c
  | .comment t => insertComment s t
  | .doctype _ => .ok s
  | .start t attrs self => selectStart re t attrs self s
  | .fin t => selectEnd t s
  | .eof => onInBody re tok s

/-- The tags of "in select in table" (4288-4289, 4304-4305). -/
def selectTableTags : List K := [.caption, .table, .tbody, .tfoot, .thead, .tr, .td, .th]

/-- `on_in_select_in_table_insertion_mode` (4281-4320). -/
def onInSelectInTable (re : Re) (tok : Tok) (s : S) : R S :=
  match tok with
  | .start t _ _ =>
    if t.mem selectTableTags then do
      let s ← closeSelect s
      re tok s
    else onInSelect re tok s
  | .fin t =>
    if t.mem selectTableTags then do
      if ← inScope selectScope (·.isTag t) s.stack then
        let s ← closeSelect s
        re tok s
      else .ok s
    else onInSelect re tok s
  | _ => onInSelect re tok s

/-! ## "in template" (4326-4448) -/

/-- Replace the current template insertion mode and reprocess (4368-4371, 4382-4385, 4394-4397, 4406-4409, 4416-4419). -/
def templateAs (re : Re) (m : Mode) (tok : Tok) (s : S) : R S :=
  match s.tmpl with
  | [] => .error .empty
  | _ :: l => re tok { s with tmpl := m :: l, mode := m }

/-- `on_in_template_insertion_mode` (4326-4448). -/
def onInTemplate (re : Re) (tok : Tok) (s : S) : R S :=
  match tok with
  | .start t attrs _ =>
    if t.mem headTags then inHeadStart t attrs s
    else if t.mem [.caption, .colgroup, .tbody, .tfoot, .thead] then templateAs re .inTable tok s
    else if t.is .col then templateAs re .inColumnGroup tok s
    else if t.is .tr then templateAs re .inTableBody tok s
    else if t.mem [.td, .th] then templateAs re .inRow tok s
    else templateAs re .inBody tok s
  | .fin t => if t.is .template then templateEnd s else .ok s
  | .eof => templateEof re s
  | _ => onInBody re tok s

/-! ## "after body" (4454-4515) -/

/-- `on_after_body_insertion_mode` (4454-4515). -/
def onAfterBody (re : Re) (tok : Tok) (s : S) : R S :=
  match tok with
  | .char c => if ws c then onInBody re tok s else re tok (s.to .inBody)
  | .comment t => do
    let e ← front s
    commentAt s (.last e.node) t
  | .doctype _ => .ok s
  | .start t attrs _ => if t.is .html then htmlStart s attrs else re tok (s.to .inBody)
  | .fin t => if t.is .html then .ok (s.to .afterAfterBody) else re tok (s.to .inBody)
  | .eof => .ok (stopParsing s)

/-! ## "in frameset" (4521-4611) -/

/-- `on_in_frameset_insertion_mode` (4521-4611). -/
def onInFrameset (tok : Tok) (s : S) : R S :=
  match tok with
  | .char c => if ws c then insertChar s c else .ok s
  | .comment t => insertComment s t
  | .doctype _ => .ok s
  | .start t attrs _ =>
    if t.is .html then htmlStart s attrs
    else if t.is .frameset then insertHtml s t attrs
    else if t.is .frame then insertPop s t attrs
    else if t.is .noframes then inHeadStart t attrs s
    else .ok s
  | .fin t =>
    if t.is .frameset then do
      let e ← cur s
      if e.is .html then .ok s
      else do
        let s ← pop s
        let e ← cur s
        .ok (if e.is .frameset then s else s.to .afterFrameset)
    else .ok s
  | .eof => do
    let _ ← cur s
    .ok (stopParsing s)

/-! ## "after frameset" (4617-4677) -/

/-- `on_after_frameset_insertion_mode` (4617-4677). -/
def onAfterFrameset (tok : Tok) (s : S) : R S :=
  match tok with
  | .char c => if ws c then insertChar s c else .ok s
  | .comment t => insertComment s t
  | .doctype _ => .ok s
  | .start t attrs _ =>
    if t.is .html then htmlStart s attrs
    else if t.is .noframes then inHeadStart t attrs s
    else .ok s
  | .fin t => if t.is .html then .ok (s.to .afterAfterFrameset) else .ok s
  | .eof => .ok (stopParsing s)

/-! ## "after after body" (4683-4725), "after after frameset" (4731-4780) -/

/-- `on_after_after_body_insertion_mode` (4683-4725). -/
def onAfterAfterBody (re : Re) (tok : Tok) (s : S) : R S :=
  match tok with
  | .comment t => commentAt s (.last 0) t
  | .doctype _ => onInBody re tok s
  | .char c => if ws c then onInBody re tok s else re tok (s.to .inBody)
  | .start t _ _ => if t.is .html then onInBody re tok s else re tok (s.to .inBody)
  | .fin _ => re tok (s.to .inBody)
  | .eof => .ok (stopParsing s)

/-- `on_after_after_frameset_insertion_mode` (4731-4780). -/
def onAfterAfterFrameset (re : Re) (tok : Tok) (s : S) : R S :=
  match tok with
  | .comment t => commentAt s (.last 0) t
  | .doctype _ => onInBody re tok s
  | .char c => if ws c then onInBody re tok s else .ok s
  | .start t attrs _ =>
    if t.is .html then onInBody re tok s
    else if t.is .noframes then inHeadStart t attrs s
    else .ok s
  | .fin _ => .ok s
  | .eof => .ok (stopParsing s)

end Verif.Model.HtmlTree
