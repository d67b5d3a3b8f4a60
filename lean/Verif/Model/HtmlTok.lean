import Verif.Model.HtmlInput
/-
Model of include/wordring/whatwg/html/parsing/tokenization.hpp (class tokenizer) over input_stream.hpp and token.hpp.

`none` = a failing assertion, undefined behaviour (front of an empty deque, last of an empty vector, calling a null member
pointer), or too little fuel. The tree construction stage is a parameter (`Sink`): what it does with tokens, which state it
switches to in `on_emit_token` of a start tag, and what the stack of open elements says. `match_named_character_reference`
(input_stream.hpp:332-372) is a parameter (`find`), too: the name found in front of the buffer with its code points.

Simplified: `report_error` is left out (it changes nothing here); so is `m_fill_length`, which is never read; attributes
beyond `m_last` in `token_attribute_list`, which are cleared before use; `m_tag_name_id` (a function of the name).
-/
namespace Verif.Model.HtmlTok
open Verif.Model.Infra Verif.Model.HtmlInput

/-- The states (2795-2874), in the order of the standard. -/
inductive St
  | data | rcdata | rawtext | scriptData | plaintext | tagOpen | endTagOpen | tagName
  | rcdataLt | rcdataEndOpen | rcdataEndName | rawtextLt | rawtextEndOpen | rawtextEndName
  | scriptLt | scriptEndOpen | scriptEndName | scriptEscStart | scriptEscStartDash | scriptEsc | scriptEscDash
  | scriptEscDashDash | scriptEscLt | scriptEscEndOpen | scriptEscEndName | scriptDblStart | scriptDbl | scriptDblDash
  | scriptDblDashDash | scriptDblLt | scriptDblEnd
  | beforeAttrName | attrName | afterAttrName | beforeAttrValue | attrValueDq | attrValueSq | attrValueUq | afterAttrValue
  | selfClosing | bogusComment | markupDecl
  | commentStart | commentStartDash | comment | commentLt | commentLtBang | commentLtBangDash | commentLtBangDashDash
  | commentEndDash | commentEnd | commentEndBang
  | doctype | beforeDoctypeName | doctypeName | afterDoctypeName | afterPublicKw | beforePublicId | publicIdDq | publicIdSq
  | afterPublicId | betweenIds | afterSystemKw | beforeSystemId | systemIdDq | systemIdSq | afterSystemId | bogusDoctype
  | cdata | cdataBracket | cdataEnd
  | charRef | namedRef | ambiguousAmp | numericRef | hexStart | decStart | hexRef | decRef | numericEnd
deriving DecidableEq, Repr

/-- `token_attribute` (token.hpp:52-75). -/
structure Attr where
  name : List Nat
  val : List Nat
  omitted : Bool
deriving DecidableEq, Repr

/-- `tag_token` (token.hpp:77-170). The attributes are in reverse, the current one in front. -/
structure Tag where
  name : List Nat
  self : Bool
  attrs : List Attr
deriving DecidableEq, Repr

/-- `DOCTYPE_token` (token.hpp:22-43). -/
structure Doctype where
  name : List Nat
  pub : List Nat
  sys : List Nat
  quirks : Bool
deriving DecidableEq, Repr

/-- The tokens passed to `on_emit_token`. Attributes are pairs of name and value; those marked as omitted are left out. -/
inductive Tok
  | doctype (d : Doctype)
  | startTag (name : List Nat) (attrs : List (List Nat × List Nat)) (self : Bool)
  | endTag (name : List Nat) (attrs : List (List Nat × List Nat)) (self : Bool)
  | comment (s : List Nat)
  | char (c : Nat)
  | eof
deriving DecidableEq, Repr

/-- The tree construction stage: what it does with a token, to which state it changes the tokenizer when it has got a start
tag, and whether the stack of open elements is empty (`none`) or else the adjusted current node is in the HTML namespace. -/
structure Sink (σ : Type) where
  emit : σ → Tok → σ
  switch : σ → Option St
  node : σ → Option Bool

/-- The data members (56-77), with those of the input stream. `kind` is `m_current_tag_token_id`. -/
structure M (σ : Type) where
  inp : Stream
  st : St
  ret : Option St
  tmp : List Nat
  dt : Doctype
  startTag : Tag
  endTag : Tag
  com : List Nat
  kind : Nat
  last : List Nat
  code : Nat
  sink : σ

variable {σ : Type}

/-- `tokenizer()` (82-88). -/
def init (s : σ) : M σ :=
  { inp := ⟨[], 0, false, false⟩, st := .data, ret := none, tmp := [], dt := ⟨[], [], [], false⟩, startTag := ⟨[], false, []⟩,
    endTag := ⟨[], false, []⟩, com := [], kind := 0, last := [], code := 0, sink := s }

/-- `create_start_tag_token` (116-121). -/
def newStart (m : M σ) : M σ := { m with kind := 2, startTag := ⟨[], false, []⟩ }

/-- `create_end_tag_token` (123-128). -/
def newEnd (m : M σ) : M σ := { m with kind := 3, endTag := ⟨[], false, []⟩ }

/-- `create_comment_token` (130-133). -/
def newComment (data : List Nat) (m : M σ) : M σ := { m with com := data }

/-- `create_DOCTYPE_token` (135-139). -/
def newDoctype (m : M σ) : M σ := { m with dt := ⟨[], [], [], false⟩ }

/-- Changing `current_tag_token()` (143-150). -/
def updTag (f : Tag → Tag) (m : M σ) : Option (M σ) :=
  if m.kind = 2 then some { m with startTag := f m.startTag }
  else if m.kind = 3 then some { m with endTag := f m.endTag }
  else none

/-- `current_tag_token()` (143-150). -/
def curTag (m : M σ) : Option Tag :=
  if m.kind = 2 then some m.startTag else if m.kind = 3 then some m.endTag else none

/-- `is_appropriate_end_tag_token` (152-158). -/
def appropriate (m : M σ) : Option Bool :=
  if m.kind = 3 then some (!(m.last.isEmpty || m.last ≠ m.endTag.name)) else none

/-- `create_attribute` (162-165). -/
def newAttr (m : M σ) : Option (M σ) := updTag (fun t => { t with attrs := ⟨[], [], false⟩ :: t.attrs }) m

/-- Changing `current_attribute()` (169-172). -/
def updAttr (f : Attr → Attr) (m : M σ) : Option (M σ) :=
  match curTag m with
  | none => none
  | some t =>
    match t.attrs with
    | [] => none
    | a :: r => updTag (fun t => { t with attrs := f a :: r }) m

/-- `unify_attribute` (204-210). -/
def unify (m : M σ) : Option (M σ) :=
  match curTag m with
  | none => none
  | some t =>
    match t.attrs with
    | [] => none
    | a :: r => updTag (fun t => { t with attrs := { a with omitted := a.omitted || r.any (fun b => b.name == a.name) } :: r }) m

def pushName (c : Nat) (m : M σ) : Option (M σ) := updTag (fun t => { t with name := t.name ++ [c] }) m
def pushAttrName (c : Nat) (m : M σ) : Option (M σ) := updAttr (fun a => { a with name := a.name ++ [c] }) m
def pushAttrVal (c : Nat) (m : M σ) : Option (M σ) := updAttr (fun a => { a with val := a.val ++ [c] }) m
def pushCom (c : Nat) (m : M σ) : M σ := { m with com := m.com ++ [c] }
def quirks (m : M σ) : M σ := { m with dt := { m.dt with quirks := true } }

/-- The attributes of a token that are not omitted, in order. -/
def shown (l : List Attr) : List (List Nat × List Nat) := (l.reverse.filter (fun a => !a.omitted)).map fun a => (a.name, a.val)

/-- `emit_token` of anything but tags (234, 246-258). -/
def emit (S : Sink σ) (t : Tok) (m : M σ) : M σ := { m with sink := S.emit m.sink t }

def chr (S : Sink σ) (c : Nat) (m : M σ) : M σ := emit S (.char c) m
def chrs (S : Sink σ) (l : List Nat) (m : M σ) : M σ := l.foldl (fun m c => chr S c m) m
def emitCom (S : Sink σ) (m : M σ) : M σ := emit S (.comment m.com) m
def emitDoctype (S : Sink σ) (m : M σ) : M σ := emit S (.doctype m.dt) m
def emitEof (S : Sink σ) (m : M σ) : M σ := emit S .eof m

/-- `emit_token(current_tag_token())` (214-244). The last check is never compiled in, as `Token` is `tag_token`. -/
def emitTag (S : Sink σ) (m : M σ) : Option (M σ) :=
  if m.kind = 2 then
    let m := { m with last := m.startTag.name }
    let m := emit S (.startTag m.startTag.name (shown m.startTag.attrs) m.startTag.self) m
    match S.switch m.sink with
    | some st => some { m with st := st }
    | none => some m
  else if m.kind = 3 then some (emit S (.endTag m.endTag.name (shown m.endTag.attrs) m.endTag.self) m)
  else none

/-- `change_state` (262). -/
def go (st : St) (m : M σ) : M σ := { m with st := st }

/-- The end of a state function: `return`, or `reconsume(st)` (270-275), which always comes last. -/
abbrev R (σ : Type) := Option (M σ × Bool)

def done (m : M σ) : R σ := some (m, false)
def re (st : St) (m : M σ) : R σ := some (go st m, true)

/-- `reconsume(return_state())`; a null pointer is undefined behaviour. -/
def reRet (m : M σ) : R σ :=
  match m.ret with
  | none => none
  | some st => re st m

/-- A result that may be undefined. -/
def doneO : Option (M σ) → R σ
  | none => none
  | some m => done m

def reO (st : St) : Option (M σ) → R σ
  | none => none
  | some m => re st m

/-- `consumed_as_part_of_attribute` (278-285). -/
def inAttr (m : M σ) : Bool := m.ret == some .attrValueDq || m.ret == some .attrValueSq || m.ret == some .attrValueUq

/-- The loop of 289. -/
def pushAttrVals : List Nat → M σ → Option (M σ)
  | [], m => some m
  | c :: l, m =>
    match pushAttrVal c m with
    | none => none
    | some m => pushAttrVals l m

/-- `flush_code_points_consumed_as_character_reference` (287-291). -/
def flushRef (S : Sink σ) (m : M σ) : Option (M σ) :=
  if inAttr m then pushAttrVals m.tmp m else some (chrs S m.tmp m)

/-- The labels of TAB, LF, FF and SPACE. -/
def ws (c : Nat) : Bool := c == 0x9 || c == 0xA || c == 0xC || c == 0x20

/-! The state functions, behind `consume()`. `none` is the end of the file (`eof()`). -/

/-- 303-330. -/
def onData (S : Sink σ) (m : M σ) : Option Nat → R σ
  | none => done (emitEof S m)
  | some c =>
    if c = 0x26 then done (go .charRef { m with ret := some .data })
    else if c = 0x3C then done (go .tagOpen m)
    else done (chr S c m)

/-- 333-360. -/
def onRcdata (S : Sink σ) (m : M σ) : Option Nat → R σ
  | none => done (emitEof S m)
  | some c =>
    if c = 0x26 then done (go .charRef { m with ret := some .rcdata })
    else if c = 0x3C then done (go .rcdataLt m)
    else if c = 0 then done (chr S 0xFFFD m)
    else done (chr S c m)

/-- 363-386 and 389-412, with the next state of `<`. -/
def onRawtext (S : Sink σ) (lt : St) (m : M σ) : Option Nat → R σ
  | none => done (emitEof S m)
  | some c =>
    if c = 0x3C then done (go lt m)
    else if c = 0 then done (chr S 0xFFFD m)
    else done (chr S c m)

/-- 415-433. -/
def onPlaintext (S : Sink σ) (m : M σ) : Option Nat → R σ
  | none => done (emitEof S m)
  | some c => if c = 0 then done (chr S 0xFFFD m) else done (chr S c m)

/-- 436-473. -/
def onTagOpen (S : Sink σ) (m : M σ) : Option Nat → R σ
  | none => done (emitEof S (chr S 0x3C m))
  | some c =>
    if c = 0x21 then done (go .markupDecl m)
    else if c = 0x2F then done (go .endTagOpen m)
    else if c = 0x3F then re .bogusComment (newComment [] m)
    else if isAsciiAlpha c then re .tagName (newStart m)
    else re .data (chr S 0x3C m)

/-- 476-506. -/
def onEndTagOpen (S : Sink σ) (m : M σ) : Option Nat → R σ
  | none => done (emitEof S (chr S 0x2F (chr S 0x3C m)))
  | some c =>
    if isAsciiAlpha c then re .tagName (newEnd m)
    else if c = 0x3E then done (go .data m)
    else re .bogusComment (newComment [] m)

/-- 509-548. -/
def onTagName (S : Sink σ) (m : M σ) : Option Nat → R σ
  | none => done (emitEof S m)
  | some c =>
    if ws c then done (go .beforeAttrName m)
    else if c = 0x2F then done (go .selfClosing m)
    else if c = 0x3E then doneO (emitTag S (go .data m))
    else if c = 0 then doneO (pushName 0xFFFD m)
    else if isAsciiUpperAlpha c then doneO (pushName (c + 0x20) m)
    else doneO (pushName c m)

/-- 551-564 and 633-646: less-than sign states of RCDATA and RAWTEXT. -/
def onRawLt (S : Sink σ) (text endOpen : St) (m : M σ) : Option Nat → R σ
  | none => re text (chr S 0x3C m)
  | some c =>
    if c = 0x2F then done (go endOpen { m with tmp := [] })
    else re text (chr S 0x3C m)

/-- 567-581, 649-663, 740-757, 966-983: end tag open states of the four kinds of raw text. -/
def onRawEndOpen (S : Sink σ) (text endName : St) (m : M σ) : Option Nat → R σ
  | none => re text (chr S 0x2F (chr S 0x3C m))
  | some c =>
    if isAsciiAlpha c then re endName (newEnd m)
    else re text (chr S 0x2F (chr S 0x3C m))

/-- `AnythingElse` of 625-629 and the like. -/
def notEnd (S : Sink σ) (text : St) (m : M σ) : R σ := re text (chrs S m.tmp (chr S 0x2F (chr S 0x3C m)))

/-- 584-630, 666-712, 760-806, 986-1032: end tag name states of the four kinds of raw text. -/
def onRawEndName (S : Sink σ) (text : St) (m : M σ) : Option Nat → R σ
  | none => notEnd S text m
  | some c =>
    if ws c then
      match appropriate m with
      | none => none
      | some true => done (go .beforeAttrName m)
      | some false => notEnd S text m
    else if c = 0x2F then
      match appropriate m with
      | none => none
      | some true => done (go .selfClosing m)
      | some false => notEnd S text m
    else if c = 0x3E then
      match appropriate m with
      | none => none
      | some true => doneO (emitTag S (go .data m))
      | some false => notEnd S text m
    else if isAsciiUpperAlpha c then doneO ((pushName (c + 0x20) m).map fun m => { m with tmp := m.tmp ++ [c] })
    else if isAsciiLowerAlpha c then doneO ((pushName c m).map fun m => { m with tmp := m.tmp ++ [c] })
    else notEnd S text m

/-- 715-737. -/
def onScriptLt (S : Sink σ) (m : M σ) : Option Nat → R σ
  | none => re .scriptData (chr S 0x3C m)
  | some c =>
    if c = 0x2F then done (go .scriptEndOpen { m with tmp := [] })
    else if c = 0x21 then done (chr S 0x21 (chr S 0x3C (go .scriptEscStart m)))
    else re .scriptData (chr S 0x3C m)

/-- 809-821 and 824-836. -/
def onEscStart (S : Sink σ) (next : St) (m : M σ) : Option Nat → R σ
  | none => re .scriptData m
  | some c => if c = 0x2D then done (chr S 0x2D (go next m)) else re .scriptData m

/-- 839-867. -/
def onScriptEsc (S : Sink σ) (m : M σ) : Option Nat → R σ
  | none => done (emitEof S m)
  | some c =>
    if c = 0x2D then done (chr S 0x2D (go .scriptEscDash m))
    else if c = 0x3C then done (go .scriptEscLt m)
    else if c = 0 then done (chr S 0xFFFD m)
    else done (chr S c m)

/-- 870-900. -/
def onScriptEscDash (S : Sink σ) (m : M σ) : Option Nat → R σ
  | none => done (emitEof S m)
  | some c =>
    if c = 0x2D then done (chr S 0x2D (go .scriptEscDashDash m))
    else if c = 0x3C then done (go .scriptEscLt m)
    else if c = 0 then done (chr S 0xFFFD (go .scriptEsc m))
    else done (chr S c (go .scriptEsc m))

/-- 903-936. -/
def onScriptEscDashDash (S : Sink σ) (m : M σ) : Option Nat → R σ
  | none => done (emitEof S m)
  | some c =>
    if c = 0x2D then done (chr S 0x2D m)
    else if c = 0x3C then done (go .scriptEscLt m)
    else if c = 0x3E then done (chr S 0x3E (go .scriptData m))
    else if c = 0 then done (chr S 0xFFFD (go .scriptEsc m))
    else done (chr S c (go .scriptEsc m))

/-- 939-963. -/
def onScriptEscLt (S : Sink σ) (m : M σ) : Option Nat → R σ
  | none => re .scriptEsc (chr S 0x3C m)
  | some c =>
    if c = 0x2F then done (go .scriptEscEndOpen { m with tmp := [] })
    else if isAsciiAlpha c then re .scriptDblStart (chr S 0x3C { m with tmp := [] })
    else re .scriptEsc (chr S 0x3C m)

/-- `U"script"`. -/
def scriptStr : List Nat := [0x73, 0x63, 0x72, 0x69, 0x70, 0x74]

/-- 1035-1071. If the buffer is not "script", the next state is the before attribute name state. -/
def onScriptDblStart (S : Sink σ) (m : M σ) : Option Nat → R σ
  | none => re .scriptEsc m
  | some c =>
    if ws c || c == 0x2F || c == 0x3E then
      done (chr S c (go (if m.tmp = scriptStr then .scriptDbl else .beforeAttrName) m))
    else if isAsciiUpperAlpha c then done (chr S c { m with tmp := m.tmp ++ [c + 0x20] })
    else if isAsciiLowerAlpha c then done (chr S c { m with tmp := m.tmp ++ [c] })
    else re .scriptEsc m

/-- 1074-1102. -/
def onScriptDbl (S : Sink σ) (m : M σ) : Option Nat → R σ
  | none => done (emitEof S m)
  | some c =>
    if c = 0x2D then done (chr S 0x2D (go .scriptDblDash m))
    else if c = 0x3C then done (chr S 0x3C (go .scriptDblLt m))
    else if c = 0 then done (chr S 0xFFFD m)
    else done (chr S c m)

/-- 1105-1135. -/
def onScriptDblDash (S : Sink σ) (m : M σ) : Option Nat → R σ
  | none => done (emitEof S m)
  | some c =>
    if c = 0x2D then done (chr S 0x2D (go .scriptDblDashDash m))
    else if c = 0x3C then done (chr S 0x3C (go .scriptDblLt m))
    else if c = 0 then done (chr S 0xFFFD (go .scriptDbl m))
    else done (chr S c (go .scriptDbl m))

/-- 1138-1171. -/
def onScriptDblDashDash (S : Sink σ) (m : M σ) : Option Nat → R σ
  | none => done (emitEof S m)
  | some c =>
    if c = 0x2D then done (chr S 0x2D m)
    else if c = 0x3C then done (chr S 0x3C (go .scriptDblLt m))
    else if c = 0x3E then done (chr S 0x3E (go .scriptData m))
    else if c = 0 then done (chr S 0xFFFD (go .scriptDbl m))
    else done (chr S c (go .scriptDbl m))

/-- 1174-1187. -/
def onScriptDblLt (S : Sink σ) (m : M σ) : Option Nat → R σ
  | none => re .scriptDbl m
  | some c =>
    if c = 0x2F then done (chr S 0x2F (go .scriptDblEnd { m with tmp := [] }))
    else re .scriptDbl m

/-- 1190-1226. -/
def onScriptDblEnd (S : Sink σ) (m : M σ) : Option Nat → R σ
  | none => re .scriptDbl m
  | some c =>
    if ws c || c == 0x2F || c == 0x3E then done (chr S c (go (if m.tmp = scriptStr then .scriptEsc else .scriptDbl) m))
    else if isAsciiUpperAlpha c then done (chr S c { m with tmp := m.tmp ++ [c + 0x20] })
    else if isAsciiLowerAlpha c then done (chr S c { m with tmp := m.tmp ++ [c] })
    else re .scriptDbl m

/-- 1229-1260. -/
def onBeforeAttrName (m : M σ) : Option Nat → R σ
  | none => re .afterAttrName m
  | some c =>
    if ws c then done m
    else if c = 0x2F ∨ c = 0x3E then re .afterAttrName m
    else if c = 0x3D then
      match newAttr m with
      | none => none
      | some m => doneO ((updAttr (fun a => { a with name := [c] }) m).map (go .attrName))
    else reO .attrName (newAttr m)

/-- 1263-1307. -/
def onAttrName (m : M σ) : Option Nat → R σ
  | none => re .afterAttrName m
  | some c =>
    if ws c ∨ c = 0x2F ∨ c = 0x3E then reO .afterAttrName (unify m)
    else if c = 0x3D then doneO ((unify m).map (go .beforeAttrValue))
    else if c = 0 then doneO (pushAttrName 0xFFFD m)
    else if c = 0x22 ∨ c = 0x27 ∨ c = 0x3C then doneO (pushAttrName c m)
    else if isAsciiUpperAlpha c then doneO (pushAttrName (c + 0x20) m)
    else doneO (pushAttrName c m)

/-- 1310-1342. -/
def onAfterAttrName (S : Sink σ) (m : M σ) : Option Nat → R σ
  | none => done (emitEof S m)
  | some c =>
    if ws c then done m
    else if c = 0x2F then done (go .selfClosing m)
    else if c = 0x3D then done (go .beforeAttrValue m)
    else if c = 0x3E then doneO (emitTag S (go .data m))
    else reO .attrName (newAttr m)

/-- 1345-1373. -/
def onBeforeAttrValue (S : Sink σ) (m : M σ) : Option Nat → R σ
  | none => re .attrValueUq m
  | some c =>
    if ws c then done m
    else if c = 0x22 then done (go .attrValueDq m)
    else if c = 0x27 then done (go .attrValueSq m)
    else if c = 0x3E then doneO (emitTag S (go .data m))
    else re .attrValueUq m

/-- 1376-1403 and 1406-1433, with the quotation mark and the state's own name. -/
def onAttrValueQ (S : Sink σ) (q : Nat) (self : St) (m : M σ) : Option Nat → R σ
  | none => done (emitEof S m)
  | some c =>
    if c = q then done (go .afterAttrValue m)
    else if c = 0x26 then done (go .charRef { m with ret := some self })
    else if c = 0 then doneO (pushAttrVal 0xFFFD m)
    else doneO (pushAttrVal c m)

/-- 1436-1478. -/
def onAttrValueUq (S : Sink σ) (m : M σ) : Option Nat → R σ
  | none => done (emitEof S m)
  | some c =>
    if ws c then done (go .beforeAttrName m)
    else if c = 0x26 then done (go .charRef { m with ret := some .attrValueUq })
    else if c = 0x3E then doneO (emitTag S (go .data m))
    else if c = 0 then doneO (pushAttrVal 0xFFFD m)
    else doneO (pushAttrVal c m)

/-- 1481-1511. -/
def onAfterAttrValue (S : Sink σ) (m : M σ) : Option Nat → R σ
  | none => done (emitEof S m)
  | some c =>
    if ws c then done (go .beforeAttrName m)
    else if c = 0x2F then done (go .selfClosing m)
    else if c = 0x3E then doneO (emitTag S (go .data m))
    else re .beforeAttrName m

/-- 1514-1535. -/
def onSelfClosing (S : Sink σ) (m : M σ) : Option Nat → R σ
  | none => done (emitEof S m)
  | some c =>
    if c = 0x3E then
      match updTag (fun t => { t with self := true }) m with
      | none => none
      | some m => doneO (emitTag S (go .data m))
    else re .beforeAttrName m

/-- 1538-1562. -/
def onBogusComment (S : Sink σ) (m : M σ) : Option Nat → R σ
  | none => done (emitEof S (emitCom S m))
  | some c =>
    if c = 0x3E then done (emitCom S (go .data m))
    else if c = 0 then done (pushCom 0xFFFD m)
    else done (pushCom c m)

/-- 1617-1637. -/
def onCommentStart (S : Sink σ) (m : M σ) : Option Nat → R σ
  | none => re .comment m
  | some c =>
    if c = 0x2D then done (go .commentStartDash m)
    else if c = 0x3E then done (emitCom S (go .data m))
    else re .comment m

/-- 1640-1666. -/
def onCommentStartDash (S : Sink σ) (m : M σ) : Option Nat → R σ
  | none => done (emitEof S (emitCom S m))
  | some c =>
    if c = 0x2D then done (go .commentEnd m)
    else if c = 0x3E then done (emitCom S (go .data m))
    else re .comment (pushCom 0x2D m)

/-- 1669-1697. A null character is emitted as a character token. -/
def onComment (S : Sink σ) (m : M σ) : Option Nat → R σ
  | none => done (emitEof S (emitCom S m))
  | some c =>
    if c = 0x3C then done (go .commentLt (pushCom c m))
    else if c = 0x2D then done (go .commentEndDash m)
    else if c = 0 then done (chr S 0xFFFD m)
    else done (pushCom c m)

/-- 1700-1719. -/
def onCommentLt (m : M σ) : Option Nat → R σ
  | none => re .comment m
  | some c =>
    if c = 0x21 then done (go .commentLtBang (pushCom c m))
    else if c = 0x3C then done (pushCom c m)
    else re .comment m

/-- 1722-1733 and 1736-1747. -/
def onCommentBang (next other : St) (m : M σ) : Option Nat → R σ
  | none => re other m
  | some c => if c = 0x2D then done (go next m) else re other m

/-- 1750-1768. -/
def onCommentBangDashDash (m : M σ) : Option Nat → R σ
  | none => re .commentEnd m
  | some c => if c = 0x3E then re .commentEnd m else re .commentEnd m

/-- 1771-1791. -/
def onCommentEndDash (S : Sink σ) (m : M σ) : Option Nat → R σ
  | none => done (emitEof S (emitCom S m))
  | some c =>
    if c = 0x2D then done (go .commentEnd m)
    else re .comment (pushCom 0x2D m)

/-- 1794-1823. -/
def onCommentEnd (S : Sink σ) (m : M σ) : Option Nat → R σ
  | none => done (emitEof S (emitCom S m))
  | some c =>
    if c = 0x3E then done (emitCom S (go .data m))
    else if c = 0x21 then done (go .commentEndBang m)
    else if c = 0x2D then done (pushCom 0x2D m)
    else re .comment (pushCom 0x2D (pushCom 0x2D m))

/-- 1826-1857. -/
def onCommentEndBang (S : Sink σ) (m : M σ) : Option Nat → R σ
  | none => done (emitEof S (emitCom S m))
  | some c =>
    if c = 0x2D then done (go .commentEndDash (pushCom 0x21 (pushCom 0x2D (pushCom 0x2D m))))
    else if c = 0x3E then done (emitCom S (go .data m))
    else re .comment (pushCom 0x21 (pushCom 0x2D (pushCom 0x2D m)))

/-- 1860-1889. -/
def onDoctype (S : Sink σ) (m : M σ) : Option Nat → R σ
  | none => done (emitEof S (emitDoctype S (quirks (newDoctype m))))
  | some c =>
    if ws c then done (go .beforeDoctypeName m)
    else if c = 0x3E then re .beforeDoctypeName m
    else re .beforeDoctypeName m

/-- 1892-1939. -/
def onBeforeDoctypeName (S : Sink σ) (m : M σ) : Option Nat → R σ
  | none => done (emitEof S (emitDoctype S (quirks (newDoctype m))))
  | some c =>
    if ws c then done m
    else if c = 0 then done (go .doctypeName { m with dt := ⟨[0xFFFD], [], [], false⟩ })
    else if c = 0x3E then done (emitDoctype S (go .data (quirks (newDoctype m))))
    else if isAsciiUpperAlpha c then done (go .doctypeName { m with dt := ⟨[c + 0x20], [], [], false⟩ })
    else done (go .doctypeName { m with dt := ⟨[c], [], [], false⟩ })

def pushDtName (c : Nat) (m : M σ) : M σ := { m with dt := { m.dt with name := m.dt.name ++ [c] } }

/-- The end of the file within a document type (2041-2048 and others). -/
def eofDoctype (S : Sink σ) (m : M σ) : R σ := done (emitEof S (emitDoctype S (quirks m)))

/-- 1942-1980. -/
def onDoctypeName (S : Sink σ) (m : M σ) : Option Nat → R σ
  | none => eofDoctype S m
  | some c =>
    if ws c then done (go .afterDoctypeName m)
    else if c = 0x3E then done (emitDoctype S (go .data m))
    else if c = 0 then done (pushDtName 0xFFFD m)
    else if isAsciiUpperAlpha c then done (pushDtName (c + 0x20) m)
    else done (pushDtName c m)

def clearPub (m : M σ) : M σ := { m with dt := { m.dt with pub := [] } }
def clearSys (m : M σ) : M σ := { m with dt := { m.dt with sys := [] } }

/-- 2037-2079. -/
def onAfterPublicKw (S : Sink σ) (m : M σ) : Option Nat → R σ
  | none => eofDoctype S m
  | some c =>
    if ws c then done (go .beforePublicId m)
    else if c = 0x22 then done (go .publicIdDq (clearPub m))
    else if c = 0x27 then done (go .publicIdSq (clearPub m))
    else if c = 0x3E then done (emitDoctype S (go .data (quirks m)))
    else re .bogusDoctype (quirks m)

/-- 2082-2121. -/
def onBeforePublicId (S : Sink σ) (m : M σ) : Option Nat → R σ
  | none => eofDoctype S m
  | some c =>
    if ws c then done m
    else if c = 0x22 then done (go .publicIdDq (clearPub m))
    else if c = 0x27 then done (go .publicIdSq (clearPub m))
    else if c = 0x3E then done (emitDoctype S (go .data (quirks m)))
    else re .bogusDoctype (quirks m)

def pushPub (c : Nat) (m : M σ) : M σ := { m with dt := { m.dt with pub := m.dt.pub ++ [c] } }
def pushSys (c : Nat) (m : M σ) : M σ := { m with dt := { m.dt with sys := m.dt.sys ++ [c] } }

/-- 2124-2155 and 2158-2189, with the quotation mark. -/
def onPublicId (S : Sink σ) (q : Nat) (m : M σ) : Option Nat → R σ
  | none => eofDoctype S m
  | some c =>
    if c = q then done (go .afterPublicId m)
    else if c = 0 then done (pushPub 0xFFFD m)
    else if c = 0x3E then done (emitDoctype S (go .data (quirks m)))
    else done (pushPub c m)

/-- 2192-2232. -/
def onAfterPublicId (S : Sink σ) (m : M σ) : Option Nat → R σ
  | none => eofDoctype S m
  | some c =>
    if ws c then done (go .betweenIds m)
    else if c = 0x3E then done (emitDoctype S (go .data m))
    else if c = 0x22 then done (go .systemIdDq (clearSys m))
    else if c = 0x27 then done (go .systemIdSq (clearSys m))
    else re .bogusDoctype (quirks m)

/-- 2235-2272. -/
def onBetweenIds (S : Sink σ) (m : M σ) : Option Nat → R σ
  | none => eofDoctype S m
  | some c =>
    if ws c then done m
    else if c = 0x3E then done (emitDoctype S (go .data m))
    else if c = 0x22 then done (go .systemIdDq (clearSys m))
    else if c = 0x27 then done (go .systemIdSq (clearSys m))
    else re .bogusDoctype (quirks m)

/-- 2275-2317. -/
def onAfterSystemKw (S : Sink σ) (m : M σ) : Option Nat → R σ
  | none => eofDoctype S m
  | some c =>
    if ws c then done (go .beforeSystemId m)
    else if c = 0x22 then done (go .systemIdDq (clearSys m))
    else if c = 0x27 then done (go .systemIdSq (clearSys m))
    else if c = 0x3E then done (emitDoctype S (go .data (quirks m)))
    else re .bogusDoctype (quirks m)

/-- 2320-2359. -/
def onBeforeSystemId (S : Sink σ) (m : M σ) : Option Nat → R σ
  | none => eofDoctype S m
  | some c =>
    if ws c then done m
    else if c = 0x22 then done (go .systemIdDq (clearSys m))
    else if c = 0x27 then done (go .systemIdSq (clearSys m))
    else if c = 0x3E then done (emitDoctype S (go .data (quirks m)))
    else re .bogusDoctype (quirks m)

/-- 2362-2393 and 2396-2427, with the quotation mark. -/
def onSystemId (S : Sink σ) (q : Nat) (m : M σ) : Option Nat → R σ
  | none => eofDoctype S m
  | some c =>
    if c = q then done (go .afterSystemId m)
    else if c = 0 then done (pushSys 0xFFFD m)
    else if c = 0x3E then done (emitDoctype S (go .data (quirks m)))
    else done (pushSys c m)

/-- 2430-2458. -/
def onAfterSystemId (S : Sink σ) (m : M σ) : Option Nat → R σ
  | none => eofDoctype S m
  | some c =>
    if ws c then done m
    else if c = 0x3E then done (emitDoctype S (go .data m))
    else re .bogusDoctype m

/-- 2461-2482. -/
def onBogusDoctype (S : Sink σ) (m : M σ) : Option Nat → R σ
  | none => done (emitEof S (emitDoctype S m))
  | some c =>
    if c = 0x3E then done (emitDoctype S (go .data m))
    else done m

/-- 2485-2503. -/
def onCdata (S : Sink σ) (m : M σ) : Option Nat → R σ
  | none => done (emitEof S m)
  | some c => if c = 0x5D then done (go .cdataBracket m) else done (chr S c m)

/-- 2506-2518. -/
def onCdataBracket (S : Sink σ) (m : M σ) : Option Nat → R σ
  | none => re .cdata (chr S 0x5D m)
  | some c => if c = 0x5D then done (go .cdataEnd m) else re .cdata (chr S 0x5D m)

/-- 2521-2541. -/
def onCdataEnd (S : Sink σ) (m : M σ) : Option Nat → R σ
  | none => re .cdata (chr S 0x5D (chr S 0x5D m))
  | some c =>
    if c = 0x5D then done (chr S 0x5D m)
    else if c = 0x3E then done (go .data m)
    else re .cdata (chr S 0x5D (chr S 0x5D m))

/-- Flushing and going back to the return state (2567-2568 and others). -/
def flushBack (S : Sink σ) (m : M σ) : R σ :=
  match flushRef S m with
  | none => none
  | some m => reRet m

/-- 2544-2569. The buffer is set before `consume()`. -/
def onCharRef (S : Sink σ) (m : M σ) : Option Nat → R σ
  | none => flushBack S { m with tmp := [0x26] }
  | some c =>
    if isAsciiAlphanumeric c then re .namedRef { m with tmp := [0x26] }
    else if c = 0x23 then done (go .numericRef { m with tmp := [0x26, c] })
    else flushBack S { m with tmp := [0x26] }

/-- 2619-2641. -/
def onAmbiguousAmp (S : Sink σ) (m : M σ) : Option Nat → R σ
  | none => reRet m
  | some c =>
    if isAsciiAlphanumeric c then
      if inAttr m then doneO (pushAttrVal c m) else done (chr S c m)
    else if c = 0x3B then reRet m
    else reRet m

/-- 2644-2663. The code is set before `consume()`. -/
def onNumericRef (m : M σ) : Option Nat → R σ
  | none => re .decStart { m with code := 0 }
  | some c =>
    if c = 0x78 ∨ c = 0x58 then done (go .hexStart { m with code := 0, tmp := m.tmp ++ [c] })
    else re .decStart { m with code := 0 }

/-- 2666-2679. -/
def onHexStart (S : Sink σ) (m : M σ) : Option Nat → R σ
  | none => flushBack S m
  | some c => if isAsciiHexDigit c then re .hexRef m else flushBack S m

/-- 2682-2695. -/
def onDecStart (S : Sink σ) (m : M σ) : Option Nat → R σ
  | none => flushBack S m
  | some c => if isAsciiDigit c then re .decRef m else flushBack S m

/-- 2698-2726. `char32_t` arithmetic is modulo 2 ^ 32. -/
def onHexRef (m : M σ) : Option Nat → R σ
  | none => re .numericEnd m
  | some c =>
    if isAsciiHexDigit c then
      let d := if isAsciiDigit c then c - 0x30 else if isAsciiUpperHexDigit c then c - 0x37 else c - 0x57
      done { m with code := (m.code * 16 + d) % 2 ^ 32 }
    else if c = 0x3B then done (go .numericEnd m)
    else re .numericEnd m

/-- 2729-2750. -/
def onDecRef (m : M σ) : Option Nat → R σ
  | none => re .numericEnd m
  | some c =>
    if isAsciiDigit c then done { m with code := (m.code * 10 + (c - 0x30)) % 2 ^ 32 }
    else if c = 0x3B then done (go .numericEnd m)
    else re .numericEnd m

/-- `character_reference_code_tbl` (lib/whatwg/html/parsing/atom_tbl.cpp:4759-4763). -/
def codeTbl : List (Nat × Nat) := [
  (0x80, 0x20AC), (0x82, 0x201A), (0x83, 0x0192), (0x84, 0x201E), (0x85, 0x2026), (0x86, 0x2020), (0x87, 0x2021), (0x88, 0x02C6),
  (0x89, 0x2030), (0x8A, 0x0160), (0x8B, 0x2039), (0x8C, 0x0152), (0x8E, 0x017D), (0x91, 0x2018), (0x92, 0x2019), (0x93, 0x201C),
  (0x94, 0x201D), (0x95, 0x2022), (0x96, 0x2013), (0x97, 0x2014), (0x98, 0x02DC), (0x99, 0x2122), (0x9A, 0x0161), (0x9B, 0x203A),
  (0x9C, 0x0153), (0x9E, 0x017E), (0x9F, 0x0178)]

/-- The code point of a numeric reference (2755-2786). -/
def codePoint (c : Nat) : Nat :=
  let r := if c = 0 then 0xFFFD else c
  let r := if 0x10FFFF < c then 0xFFFD else r
  let r := if isSurrogate c then 0xFFFD else r
  match codeTbl.lookup c with
  | some d => d
  | none => r

/-- 2753-2791. Nothing is consumed. -/
def onNumericEnd (S : Sink σ) (m : M σ) : Option (M σ) :=
  let m := { m with code := codePoint m.code, tmp := [codePoint m.code] }
  match flushRef S m with
  | none => none
  | some m =>
    match m.ret with
    | none => none
    | some st => some (go st m)

/-- The state functions that begin with `consume()`. -/
def act (S : Sink σ) (st : St) (m : M σ) (c : Option Nat) : R σ :=
  match st with
  | .data => onData S m c
  | .rcdata => onRcdata S m c
  | .rawtext => onRawtext S .rawtextLt m c
  | .scriptData => onRawtext S .scriptLt m c
  | .plaintext => onPlaintext S m c
  | .tagOpen => onTagOpen S m c
  | .endTagOpen => onEndTagOpen S m c
  | .tagName => onTagName S m c
  | .rcdataLt => onRawLt S .rcdata .rcdataEndOpen m c
  | .rcdataEndOpen => onRawEndOpen S .rcdata .rcdataEndName m c
  | .rcdataEndName => onRawEndName S .rcdata m c
  | .rawtextLt => onRawLt S .rawtext .rawtextEndOpen m c
  | .rawtextEndOpen => onRawEndOpen S .rawtext .rawtextEndName m c
  | .rawtextEndName => onRawEndName S .rawtext m c
  | .scriptLt => onScriptLt S m c
  | .scriptEndOpen => onRawEndOpen S .scriptData .scriptEndName m c
  | .scriptEndName => onRawEndName S .scriptData m c
  | .scriptEscStart => onEscStart S .scriptEscStartDash m c
  | .scriptEscStartDash => onEscStart S .scriptEscDashDash m c
  | .scriptEsc => onScriptEsc S m c
  | .scriptEscDash => onScriptEscDash S m c
  | .scriptEscDashDash => onScriptEscDashDash S m c
  | .scriptEscLt => onScriptEscLt S m c
  | .scriptEscEndOpen => onRawEndOpen S .scriptEsc .scriptEscEndName m c
  | .scriptEscEndName => onRawEndName S .scriptEsc m c
  | .scriptDblStart => onScriptDblStart S m c
  | .scriptDbl => onScriptDbl S m c
  | .scriptDblDash => onScriptDblDash S m c
  | .scriptDblDashDash => onScriptDblDashDash S m c
  | .scriptDblLt => onScriptDblLt S m c
  | .scriptDblEnd => onScriptDblEnd S m c
  | .beforeAttrName => onBeforeAttrName m c
  | .attrName => onAttrName m c
  | .afterAttrName => onAfterAttrName S m c
  | .beforeAttrValue => onBeforeAttrValue S m c
  | .attrValueDq => onAttrValueQ S 0x22 .attrValueDq m c
  | .attrValueSq => onAttrValueQ S 0x27 .attrValueSq m c
  | .attrValueUq => onAttrValueUq S m c
  | .afterAttrValue => onAfterAttrValue S m c
  | .selfClosing => onSelfClosing S m c
  | .bogusComment => onBogusComment S m c
  | .commentStart => onCommentStart S m c
  | .commentStartDash => onCommentStartDash S m c
  | .comment => onComment S m c
  | .commentLt => onCommentLt m c
  | .commentLtBang => onCommentBang .commentLtBangDash .comment m c
  | .commentLtBangDash => onCommentBang .commentLtBangDashDash .commentEndDash m c
  | .commentLtBangDashDash => onCommentBangDashDash m c
  | .commentEndDash => onCommentEndDash S m c
  | .commentEnd => onCommentEnd S m c
  | .commentEndBang => onCommentEndBang S m c
  | .doctype => onDoctype S m c
  | .beforeDoctypeName => onBeforeDoctypeName S m c
  | .doctypeName => onDoctypeName S m c
  | .afterPublicKw => onAfterPublicKw S m c
  | .beforePublicId => onBeforePublicId S m c
  | .publicIdDq => onPublicId S 0x22 m c
  | .publicIdSq => onPublicId S 0x27 m c
  | .afterPublicId => onAfterPublicId S m c
  | .betweenIds => onBetweenIds S m c
  | .afterSystemKw => onAfterSystemKw S m c
  | .beforeSystemId => onBeforeSystemId S m c
  | .systemIdDq => onSystemId S 0x22 m c
  | .systemIdSq => onSystemId S 0x27 m c
  | .afterSystemId => onAfterSystemId S m c
  | .bogusDoctype => onBogusDoctype S m c
  | .cdata => onCdata S m c
  | .cdataBracket => onCdataBracket S m c
  | .cdataEnd => onCdataEnd S m c
  | .charRef => onCharRef S m c
  | .ambiguousAmp => onAmbiguousAmp S m c
  | .numericRef => onNumericRef m c
  | .hexStart => onHexStart S m c
  | .decStart => onDecStart S m c
  | .hexRef => onHexRef m c
  | .decRef => onDecRef m c
  | .markupDecl | .afterDoctypeName | .namedRef | .numericEnd => none

/-- `consume()` of the machine, and what `eof()` says then. -/
def next (m : M σ) : Option (M σ × Option Nat) :=
  match consume m.inp with
  | none => none
  | some (s, c) => some ({ m with inp := s }, if s.eofConsumed then none else some c)

/-- `consume(n)`. -/
def skip (n : Nat) (m : M σ) : Option (M σ) :=
  match consumeN m.inp n with
  | none => none
  | some s => some { m with inp := s }

/-- `match_named_character_reference`: the name found, without the ampersand, and one or two code points (the second is 0 if
there is one only). The outer `none` is undefined behaviour. -/
abbrev Find := List Nat → Option (Option (List Nat × Nat × Nat))

/-- `U"--"`, `U"doctype"`, `U"[CDATA["`, `U"public"`, `U"system"`. -/
def dashStr : List Nat := [0x2D, 0x2D]
def doctypeStr : List Nat := [0x64, 0x6F, 0x63, 0x74, 0x79, 0x70, 0x65]
def cdataStr : List Nat := [0x5B, 0x43, 0x44, 0x41, 0x54, 0x41, 0x5B]
def publicStr : List Nat := [0x70, 0x75, 0x62, 0x6C, 0x69, 0x63]
def systemStr : List Nat := [0x73, 0x79, 0x73, 0x74, 0x65, 0x6D]

/-- 1565-1614 up to `flush_code_point()`, behind `fill`. A CDATA section begins if the node is in the HTML namespace. -/
def markupDecl (S : Sink σ) (m : M σ) : Option (M σ) :=
  match matchLabel m.inp dashStr false false, matchLabel m.inp doctypeStr false true, matchLabel m.inp cdataStr false false with
  | some true, _, _ => (skip 2 m).map fun m => go .commentStart (newComment [] m)
  | _, some true, _ => (skip 7 m).map (go .doctype)
  | _, _, some true =>
    (skip 7 m).map fun m =>
      if S.node m.sink = some true then go .cdata m
      else go .bogusComment (newComment cdataStr m)
  | _, _, _ => some (go .bogusComment (newComment [] m))

/-- What is left to do in 1983-2034 behind the first `consume()`. -/
inductive After
  | done
  | flush
  | re

/-- 1988-2033, behind `fill` and `consume()`. -/
def afterDoctypeName (S : Sink σ) (m : M σ) : Option Nat → Option (M σ × After)
  | none => some (emitEof S (emitDoctype S (quirks m)), .done)
  | some c =>
    if ws c then some (m, .flush)
    else if c = 0x3E then some (emitDoctype S (go .data m), .flush)
    else
      match matchLabel m.inp publicStr true true, matchLabel m.inp systemStr true true with
      | some true, _ => (skip 5 m).map fun m => (go .afterPublicKw m, .flush)
      | _, some true => (skip 5 m).map fun m => (go .afterSystemKw m, .flush)
      | _, _ => some (go .bogusDoctype (quirks m), .re)

/-- 2576-2615 up to `flush_code_point()`, behind `fill`. -/
def namedRef (S : Sink σ) (find : Find) (m : M σ) : Option (M σ) :=
  match find m.inp.c with
  | none => none
  | some none =>
    match flushRef S m with
    | none => none
    | some m => some (go .ambiguousAmp m)
  | some (some (name, a, b)) =>
    let m := { m with tmp := m.tmp ++ name }
    match skip name.length m with
    | none => none
    | some m =>
      let m :=
        match m.inp.c with
        | c :: _ =>
          if inAttr m && name.getLast? != some 0x3B && (c == 0x3D || isAsciiAlphanumeric c) then m
          else { m with tmp := if b ≠ 0 then [a, b] else [a] }
        | [] => { m with tmp := if b ≠ 0 then [a, b] else [a] }
      match flushRef S m with
      | none => none
      | some m =>
        match m.ret with
        | none => none
        | some st => some (go st m)

mutual
/-- `on_emit_code_point()` (295-298): the function of the current state. -/
def run (S : Sink σ) (find : Find) : Nat → M σ → Option (M σ)
  | 0, _ => none
  | f + 1, m =>
    match m.st with
    | .markupDecl =>
      if !fill m.inp 7 then some m
      else
        match markupDecl S m with
        | none => none
        | some m => flush S find f m
    | .afterDoctypeName =>
      if !fill m.inp 6 then some m
      else
        match next m with
        | none => none
        | some (m, c) =>
          match afterDoctypeName S m c with
          | none => none
          | some (m, .done) => some m
          | some (m, .flush) => flush S find f m
          | some (m, .re) =>
            match run S find f { m with inp := reconsume m.inp } with
            | none => none
            | some m => flush S find f m
    | .namedRef =>
      if !fill m.inp 33 then some m
      else
        match namedRef S find m with
        | none => none
        | some m => flush S find f m
    | .numericEnd => onNumericEnd S m
    | st =>
      match next m with
      | none => none
      | some (m, c) =>
        match act S st m c with
        | none => none
        | some (m, false) => some m
        | some (m, true) => run S find f { m with inp := reconsume m.inp }

/-- `flush_code_point` (input_stream.hpp:177-192) behind its assertion. -/
def flush (S : Sink σ) (find : Find) : Nat → M σ → Option (M σ)
  | 0, _ => none
  | f + 1, m =>
    if m.inp.eofConsumed then none
    else flushLoop S find f m

/-- The loop (184-189) and the call behind it (191). -/
def flushLoop (S : Sink σ) (find : Find) : Nat → M σ → Option (M σ)
  | 0, _ => none
  | f + 1, m =>
    if m.inp.c = [] then
      if m.inp.eof && !m.inp.eofConsumed then run S find f m else some m
    else
      match run S find f m with
      | none => none
      | some m' => if m.inp.c.length = m'.inp.c.length then some m' else flushLoop S find f m'
end

/-- `emit_code_point` (input_stream.hpp:164-168). -/
def push (S : Sink σ) (find : Find) (f c : Nat) (m : M σ) : Option (M σ) :=
  run S find f { m with inp := { m.inp with c := m.inp.c ++ [c] } }

/-- Emitting a list of code points. -/
def pushAll (S : Sink σ) (find : Find) (f : Nat) : List Nat → M σ → Option (M σ)
  | [], m => some m
  | c :: l, m =>
    match push S find f c m with
    | none => none
    | some m => pushAll S find f l m

/-- The callbacks of the input stream that call the state function. -/
def emitOf : Event → Option Nat
  | .emit c => some c
  | _ => none

/-- `push_code_point` (input_stream.hpp:107-134) for all of a text; the state is `m_cr_state`. -/
def feed (S : Sink σ) (find : Find) (f : Nat) : Bool → List Nat → M σ → Option (Bool × M σ)
  | cr, [], m => some (cr, m)
  | cr, cp :: l, m =>
    match pushAll S find f ((pushCodePoint cr cp).2.filterMap emitOf) m with
    | none => none
    | some m => feed S find f (pushCodePoint cr cp).1 l m

/-- `push_eof` (input_stream.hpp:140-153); `cr` is `m_cr_state`. -/
def pushEof (S : Sink σ) (find : Find) (f : Nat) (cr : Bool) (m : M σ) : Option (M σ) :=
  let m := { m with inp := { m.inp with eof := true } }
  if cr then
    match push S find f 0xA m with
    | none => none
    | some m => run S find f m
  else run S find f m

/-- Tokenizing a text: `push_code_point` for every code point, then `push_eof`. -/
def tokenize (S : Sink σ) (find : Find) (f : Nat) (s : σ) (l : List Nat) : Option (M σ) :=
  match feed S find f false l (init s) with
  | none => none
  | some (cr, m) => pushEof S find f cr m

/-- A sink that records the tokens and never switches. -/
def record (node : Option Bool) : Sink (List Tok) := ⟨fun l t => l ++ [t], fun _ => none, fun _ => node⟩

end Verif.Model.HtmlTok
