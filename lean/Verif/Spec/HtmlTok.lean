/-
The tokenization stage of the HTML standard (13.2.5), as a table: one entry per state, one row per case, written down from the
standard. A small interpreter runs it over the input that is left. Parse errors are left out.

`σ` is the state of the tree construction stage, which gets the tokens, may switch the tokenizer when it has got a start tag,
and knows whether there is an adjusted current node that is not in the HTML namespace.
-/
namespace Verif.Spec.HtmlTok

/-- The states of the standard, in its order. -/
inductive St
  | data | rcdata | rawtext | scriptData | plaintext | tagOpen | endTagOpen | tagName
  | rcdataLt | rcdataEndOpen | rcdataEndName | rawtextLt | rawtextEndOpen | rawtextEndName
  | scriptLt | scriptEndOpen | scriptEndName | scriptEscStart | scriptEscStartDash | scriptEsc | scriptEscDash
  | scriptEscDashDash | scriptEscLt | scriptEscEndOpen | scriptEscEndName | scriptDblStart | scriptDbl | scriptDblDash
  | scriptDblDashDash | scriptDblLt | scriptDblEnd
  | beforeAttrName | attrName | afterAttrName | beforeAttrValue | attrValueDq | attrValueSq | attrValueUq | afterAttrValue
  | selfClosing | bogusComment | markupDecl
  | commentStart | commentStartDash | comment | commentLt | commentLtBang | commentLtBangDash | commentLtBangDashDash
  | commentEndDash | commentEnd | commentEndBang
  | doctype | beforeDoctypeName | doctypeName | afterDoctypeName | afterPublicKw | beforePublicId | publicIdDq | publicIdSq
  | afterPublicId | betweenIds | afterSystemKw | beforeSystemId | systemIdDq | systemIdSq | afterSystemId | bogusDoctype
  | cdata | cdataBracket | cdataEnd
  | charRef | namedRef | ambiguousAmp | numericRef | hexStart | decStart | hexRef | decRef | numericEnd
deriving DecidableEq, Repr

/-- Tokens. A document type may lack its identifiers; of several attributes with the same name only the first is there. -/
inductive Tok
  | doctype (name : List Nat) (pub sys : Option (List Nat)) (quirks : Bool)
  | startTag (name : List Nat) (attrs : List (List Nat × List Nat)) (self : Bool)
  | endTag (name : List Nat) (attrs : List (List Nat × List Nat)) (self : Bool)
  | comment (s : List Nat)
  | char (c : Nat)
  | eof
deriving DecidableEq, Repr

/-! ### The table -/

/-- The character a row is for. `any` is "anything else", the end of the file included. -/
inductive On
  | any | eof | white | upper | lower | alpha | alnum | digit | hex
  | is (l : List Nat)

/-- What must hold besides. -/
inductive If
  | always
  /-- The current end tag token is an appropriate end tag token. -/
  | appropriate
  /-- The temporary buffer is the string "script". -/
  | script

/-- Which character is appended or emitted: the current one, its lowercase version, or a given one. -/
inductive Src
  | cur | low
  | lit (n : Nat)

/-- Where to: `out` emits a character token; `ref` is the value of the attribute if the reference is part of one, else emits. -/
inductive Reg
  | out | name | attrName | attrVal | com | dtName | pub | sys | tmp | ref

inductive Do
  | put (r : Reg) (s : Src)
  | emitTag | emitCom | emitDoctype | emitEof
  /-- Emit a character token for each character of the temporary buffer. -/
  | emitTmp
  | newStart | newEnd | newCom | newDoctype | newAttr
  | self | quirks | pubEmpty | sysEmpty | tmpEmpty
  | ret (s : St)
  | codeZero | addHex | addDec
  /-- Flush code points consumed as a character reference. -/
  | flush

inductive To
  | stay
  | go (s : St)
  /-- Reconsume in a state. -/
  | again (s : St)
  /-- Reconsume in the return state. -/
  | againRet

structure Row where
  on : On
  cond : If
  acts : List Do
  to : To

section Table
open On Src Reg Do To

def row (o : On) (a : List Do) (t : To) : Row := ⟨o, .always, a, t⟩
def rowOk (o : On) (a : List Do) (t : To) : Row := ⟨o, .appropriate, a, t⟩
def rowScript (o : On) (a : List Do) (t : To) : Row := ⟨o, .script, a, t⟩

def repl : Src := lit 0xFFFD

/-- The end tag name states of RCDATA, RAWTEXT, script data, and escaped script data; `text` is the state to go back to. -/
def endName (text : St) : List Row := [
  rowOk white [] (go .beforeAttrName), rowOk (is [0x2F]) [] (go .selfClosing), rowOk (is [0x3E]) [emitTag] (go .data),
  row upper [put name low, put tmp cur] stay, row lower [put name cur, put tmp cur] stay,
  row any [put out (lit 0x3C), put out (lit 0x2F), emitTmp] (again text)]

/-- The end of the file within a document type. -/
def eofDoctype : Row := row eof [quirks, emitDoctype, emitEof] stay

/-- The table; the four states that are not in it look further ahead, or do not consume. -/
def table : St → List Row
  | .data => [row (is [0x26]) [ret .data] (go .charRef), row (is [0x3C]) [] (go .tagOpen), row eof [emitEof] stay,
      row any [put out cur] stay]
  | .rcdata => [row (is [0x26]) [ret .rcdata] (go .charRef), row (is [0x3C]) [] (go .rcdataLt), row (is [0]) [put out repl] stay,
      row eof [emitEof] stay, row any [put out cur] stay]
  | .rawtext => [row (is [0x3C]) [] (go .rawtextLt), row (is [0]) [put out repl] stay, row eof [emitEof] stay, row any [put out cur] stay]
  | .scriptData => [row (is [0x3C]) [] (go .scriptLt), row (is [0]) [put out repl] stay, row eof [emitEof] stay,
      row any [put out cur] stay]
  | .plaintext => [row (is [0]) [put out repl] stay, row eof [emitEof] stay, row any [put out cur] stay]
  | .tagOpen => [row (is [0x21]) [] (go .markupDecl), row (is [0x2F]) [] (go .endTagOpen), row alpha [newStart] (again .tagName),
      row (is [0x3F]) [newCom] (again .bogusComment), row eof [put out (lit 0x3C), emitEof] stay,
      row any [put out (lit 0x3C)] (again .data)]
  | .endTagOpen => [row alpha [newEnd] (again .tagName), row (is [0x3E]) [] (go .data),
      row eof [put out (lit 0x3C), put out (lit 0x2F), emitEof] stay, row any [newCom] (again .bogusComment)]
  | .tagName => [row white [] (go .beforeAttrName), row (is [0x2F]) [] (go .selfClosing), row (is [0x3E]) [emitTag] (go .data),
      row upper [put name low] stay, row (is [0]) [put name repl] stay, row eof [emitEof] stay, row any [put name cur] stay]
  | .rcdataLt => [row (is [0x2F]) [tmpEmpty] (go .rcdataEndOpen), row any [put out (lit 0x3C)] (again .rcdata)]
  | .rcdataEndOpen => [row alpha [newEnd] (again .rcdataEndName), row any [put out (lit 0x3C), put out (lit 0x2F)] (again .rcdata)]
  | .rcdataEndName => endName .rcdata
  | .rawtextLt => [row (is [0x2F]) [tmpEmpty] (go .rawtextEndOpen), row any [put out (lit 0x3C)] (again .rawtext)]
  | .rawtextEndOpen => [row alpha [newEnd] (again .rawtextEndName), row any [put out (lit 0x3C), put out (lit 0x2F)] (again .rawtext)]
  | .rawtextEndName => endName .rawtext
  | .scriptLt => [row (is [0x2F]) [tmpEmpty] (go .scriptEndOpen),
      row (is [0x21]) [put out (lit 0x3C), put out (lit 0x21)] (go .scriptEscStart), row any [put out (lit 0x3C)] (again .scriptData)]
  | .scriptEndOpen => [row alpha [newEnd] (again .scriptEndName), row any [put out (lit 0x3C), put out (lit 0x2F)] (again .scriptData)]
  | .scriptEndName => endName .scriptData
  | .scriptEscStart => [row (is [0x2D]) [put out (lit 0x2D)] (go .scriptEscStartDash), row any [] (again .scriptData)]
  | .scriptEscStartDash => [row (is [0x2D]) [put out (lit 0x2D)] (go .scriptEscDashDash), row any [] (again .scriptData)]
  | .scriptEsc => [row (is [0x2D]) [put out (lit 0x2D)] (go .scriptEscDash), row (is [0x3C]) [] (go .scriptEscLt),
      row (is [0]) [put out repl] stay, row eof [emitEof] stay, row any [put out cur] stay]
  | .scriptEscDash => [row (is [0x2D]) [put out (lit 0x2D)] (go .scriptEscDashDash), row (is [0x3C]) [] (go .scriptEscLt),
      row (is [0]) [put out repl] (go .scriptEsc), row eof [emitEof] stay, row any [put out cur] (go .scriptEsc)]
  | .scriptEscDashDash => [row (is [0x2D]) [put out (lit 0x2D)] stay, row (is [0x3C]) [] (go .scriptEscLt),
      row (is [0x3E]) [put out (lit 0x3E)] (go .scriptData), row (is [0]) [put out repl] (go .scriptEsc), row eof [emitEof] stay,
      row any [put out cur] (go .scriptEsc)]
  | .scriptEscLt => [row (is [0x2F]) [tmpEmpty] (go .scriptEscEndOpen),
      row alpha [tmpEmpty, put out (lit 0x3C)] (again .scriptDblStart), row any [put out (lit 0x3C)] (again .scriptEsc)]
  | .scriptEscEndOpen => [row alpha [newEnd] (again .scriptEscEndName),
      row any [put out (lit 0x3C), put out (lit 0x2F)] (again .scriptEsc)]
  | .scriptEscEndName => endName .scriptEsc
  | .scriptDblStart => [rowScript (is [0x9, 0xA, 0xC, 0x20, 0x2F, 0x3E]) [put out cur] (go .scriptDbl),
      row (is [0x9, 0xA, 0xC, 0x20, 0x2F, 0x3E]) [put out cur] (go .scriptEsc),
      row upper [put tmp low, put out cur] stay, row lower [put tmp cur, put out cur] stay, row any [] (again .scriptEsc)]
  | .scriptDbl => [row (is [0x2D]) [put out (lit 0x2D)] (go .scriptDblDash), row (is [0x3C]) [put out (lit 0x3C)] (go .scriptDblLt),
      row (is [0]) [put out repl] stay, row eof [emitEof] stay, row any [put out cur] stay]
  | .scriptDblDash => [row (is [0x2D]) [put out (lit 0x2D)] (go .scriptDblDashDash),
      row (is [0x3C]) [put out (lit 0x3C)] (go .scriptDblLt), row (is [0]) [put out repl] (go .scriptDbl), row eof [emitEof] stay,
      row any [put out cur] (go .scriptDbl)]
  | .scriptDblDashDash => [row (is [0x2D]) [put out (lit 0x2D)] stay, row (is [0x3C]) [put out (lit 0x3C)] (go .scriptDblLt),
      row (is [0x3E]) [put out (lit 0x3E)] (go .scriptData), row (is [0]) [put out repl] (go .scriptDbl), row eof [emitEof] stay,
      row any [put out cur] (go .scriptDbl)]
  | .scriptDblLt => [row (is [0x2F]) [tmpEmpty, put out (lit 0x2F)] (go .scriptDblEnd), row any [] (again .scriptDbl)]
  | .scriptDblEnd => [rowScript (is [0x9, 0xA, 0xC, 0x20, 0x2F, 0x3E]) [put out cur] (go .scriptEsc),
      row (is [0x9, 0xA, 0xC, 0x20, 0x2F, 0x3E]) [put out cur] (go .scriptDbl),
      row upper [put tmp low, put out cur] stay, row lower [put tmp cur, put out cur] stay, row any [] (again .scriptDbl)]
  | .beforeAttrName => [row white [] stay, row (is [0x2F, 0x3E]) [] (again .afterAttrName), row eof [] (again .afterAttrName),
      row (is [0x3D]) [newAttr, put attrName cur] (go .attrName), row any [newAttr] (again .attrName)]
  | .attrName => [row white [] (again .afterAttrName), row (is [0x2F, 0x3E]) [] (again .afterAttrName), row eof [] (again .afterAttrName),
      row (is [0x3D]) [] (go .beforeAttrValue), row upper [put attrName low] stay, row (is [0]) [put attrName repl] stay,
      row any [put attrName cur] stay]
  | .afterAttrName => [row white [] stay, row (is [0x2F]) [] (go .selfClosing), row (is [0x3D]) [] (go .beforeAttrValue),
      row (is [0x3E]) [emitTag] (go .data), row eof [emitEof] stay, row any [newAttr] (again .attrName)]
  | .beforeAttrValue => [row white [] stay, row (is [0x22]) [] (go .attrValueDq), row (is [0x27]) [] (go .attrValueSq),
      row (is [0x3E]) [emitTag] (go .data), row any [] (again .attrValueUq)]
  | .attrValueDq => [row (is [0x22]) [] (go .afterAttrValue), row (is [0x26]) [ret .attrValueDq] (go .charRef),
      row (is [0]) [put attrVal repl] stay, row eof [emitEof] stay, row any [put attrVal cur] stay]
  | .attrValueSq => [row (is [0x27]) [] (go .afterAttrValue), row (is [0x26]) [ret .attrValueSq] (go .charRef),
      row (is [0]) [put attrVal repl] stay, row eof [emitEof] stay, row any [put attrVal cur] stay]
  | .attrValueUq => [row white [] (go .beforeAttrName), row (is [0x26]) [ret .attrValueUq] (go .charRef),
      row (is [0x3E]) [emitTag] (go .data), row (is [0]) [put attrVal repl] stay, row eof [emitEof] stay, row any [put attrVal cur] stay]
  | .afterAttrValue => [row white [] (go .beforeAttrName), row (is [0x2F]) [] (go .selfClosing), row (is [0x3E]) [emitTag] (go .data),
      row eof [emitEof] stay, row any [] (again .beforeAttrName)]
  | .selfClosing => [row (is [0x3E]) [self, emitTag] (go .data), row eof [emitEof] stay, row any [] (again .beforeAttrName)]
  | .bogusComment => [row (is [0x3E]) [emitCom] (go .data), row eof [emitCom, emitEof] stay, row (is [0]) [put com repl] stay,
      row any [put com cur] stay]
  | .commentStart => [row (is [0x2D]) [] (go .commentStartDash), row (is [0x3E]) [emitCom] (go .data), row any [] (again .comment)]
  | .commentStartDash => [row (is [0x2D]) [] (go .commentEnd), row (is [0x3E]) [emitCom] (go .data), row eof [emitCom, emitEof] stay,
      row any [put com (lit 0x2D)] (again .comment)]
  | .comment => [row (is [0x3C]) [put com cur] (go .commentLt), row (is [0x2D]) [] (go .commentEndDash), row (is [0]) [put com repl] stay,
      row eof [emitCom, emitEof] stay, row any [put com cur] stay]
  | .commentLt => [row (is [0x21]) [put com cur] (go .commentLtBang), row (is [0x3C]) [put com cur] stay, row any [] (again .comment)]
  | .commentLtBang => [row (is [0x2D]) [] (go .commentLtBangDash), row any [] (again .comment)]
  | .commentLtBangDash => [row (is [0x2D]) [] (go .commentLtBangDashDash), row any [] (again .commentEndDash)]
  | .commentLtBangDashDash => [row any [] (again .commentEnd)]
  | .commentEndDash => [row (is [0x2D]) [] (go .commentEnd), row eof [emitCom, emitEof] stay, row any [put com (lit 0x2D)] (again .comment)]
  | .commentEnd => [row (is [0x3E]) [emitCom] (go .data), row (is [0x21]) [] (go .commentEndBang), row (is [0x2D]) [put com (lit 0x2D)] stay,
      row eof [emitCom, emitEof] stay, row any [put com (lit 0x2D), put com (lit 0x2D)] (again .comment)]
  | .commentEndBang => [row (is [0x2D]) [put com (lit 0x2D), put com (lit 0x2D), put com (lit 0x21)] (go .commentEndDash),
      row (is [0x3E]) [emitCom] (go .data), row eof [emitCom, emitEof] stay,
      row any [put com (lit 0x2D), put com (lit 0x2D), put com (lit 0x21)] (again .comment)]
  | .doctype => [row white [] (go .beforeDoctypeName), row eof [newDoctype, quirks, emitDoctype, emitEof] stay,
      row any [] (again .beforeDoctypeName)]
  | .beforeDoctypeName => [row white [] stay, row upper [newDoctype, put dtName low] (go .doctypeName),
      row (is [0]) [newDoctype, put dtName repl] (go .doctypeName), row (is [0x3E]) [newDoctype, quirks, emitDoctype] (go .data),
      row eof [newDoctype, quirks, emitDoctype, emitEof] stay, row any [newDoctype, put dtName cur] (go .doctypeName)]
  | .doctypeName => [row white [] (go .afterDoctypeName), row (is [0x3E]) [emitDoctype] (go .data), row upper [put dtName low] stay,
      row (is [0]) [put dtName repl] stay, eofDoctype, row any [put dtName cur] stay]
  | .afterPublicKw => [row white [] (go .beforePublicId), row (is [0x22]) [pubEmpty] (go .publicIdDq),
      row (is [0x27]) [pubEmpty] (go .publicIdSq), row (is [0x3E]) [quirks, emitDoctype] (go .data), eofDoctype,
      row any [quirks] (again .bogusDoctype)]
  | .beforePublicId => [row white [] stay, row (is [0x22]) [pubEmpty] (go .publicIdDq),
      row (is [0x27]) [pubEmpty] (go .publicIdSq), row (is [0x3E]) [quirks, emitDoctype] (go .data), eofDoctype,
      row any [quirks] (again .bogusDoctype)]
  | .publicIdDq => [row (is [0x22]) [] (go .afterPublicId), row (is [0]) [put pub repl] stay,
      row (is [0x3E]) [quirks, emitDoctype] (go .data), eofDoctype, row any [put pub cur] stay]
  | .publicIdSq => [row (is [0x27]) [] (go .afterPublicId), row (is [0]) [put pub repl] stay,
      row (is [0x3E]) [quirks, emitDoctype] (go .data), eofDoctype, row any [put pub cur] stay]
  | .afterPublicId => [row white [] (go .betweenIds), row (is [0x3E]) [emitDoctype] (go .data), row (is [0x22]) [sysEmpty] (go .systemIdDq),
      row (is [0x27]) [sysEmpty] (go .systemIdSq), eofDoctype, row any [quirks] (again .bogusDoctype)]
  | .betweenIds => [row white [] stay, row (is [0x3E]) [emitDoctype] (go .data), row (is [0x22]) [sysEmpty] (go .systemIdDq),
      row (is [0x27]) [sysEmpty] (go .systemIdSq), eofDoctype, row any [quirks] (again .bogusDoctype)]
  | .afterSystemKw => [row white [] (go .beforeSystemId), row (is [0x22]) [sysEmpty] (go .systemIdDq),
      row (is [0x27]) [sysEmpty] (go .systemIdSq), row (is [0x3E]) [quirks, emitDoctype] (go .data), eofDoctype,
      row any [quirks] (again .bogusDoctype)]
  | .beforeSystemId => [row white [] stay, row (is [0x22]) [sysEmpty] (go .systemIdDq),
      row (is [0x27]) [sysEmpty] (go .systemIdSq), row (is [0x3E]) [quirks, emitDoctype] (go .data), eofDoctype,
      row any [quirks] (again .bogusDoctype)]
  | .systemIdDq => [row (is [0x22]) [] (go .afterSystemId), row (is [0]) [put sys repl] stay,
      row (is [0x3E]) [quirks, emitDoctype] (go .data), eofDoctype, row any [put sys cur] stay]
  | .systemIdSq => [row (is [0x27]) [] (go .afterSystemId), row (is [0]) [put sys repl] stay,
      row (is [0x3E]) [quirks, emitDoctype] (go .data), eofDoctype, row any [put sys cur] stay]
  | .afterSystemId => [row white [] stay, row (is [0x3E]) [emitDoctype] (go .data), eofDoctype, row any [] (again .bogusDoctype)]
  | .bogusDoctype => [row (is [0x3E]) [emitDoctype] (go .data), row eof [emitDoctype, emitEof] stay, row any [] stay]
  | .cdata => [row (is [0x5D]) [] (go .cdataBracket), row eof [emitEof] stay, row any [put out cur] stay]
  | .cdataBracket => [row (is [0x5D]) [] (go .cdataEnd), row any [put out (lit 0x5D)] (again .cdata)]
  | .cdataEnd => [row (is [0x5D]) [put out (lit 0x5D)] stay, row (is [0x3E]) [] (go .data),
      row any [put out (lit 0x5D), put out (lit 0x5D)] (again .cdata)]
  | .charRef => [row alnum [tmpEmpty, put tmp (lit 0x26)] (again .namedRef),
      row (is [0x23]) [tmpEmpty, put tmp (lit 0x26), put tmp cur] (go .numericRef),
      row any [tmpEmpty, put tmp (lit 0x26), flush] againRet]
  | .ambiguousAmp => [row alnum [put ref cur] stay, row any [] againRet]
  | .numericRef => [row (is [0x78, 0x58]) [codeZero, put tmp cur] (go .hexStart), row any [codeZero] (again .decStart)]
  | .hexStart => [row hex [] (again .hexRef), row any [flush] againRet]
  | .decStart => [row digit [] (again .decRef), row any [flush] againRet]
  | .hexRef => [row hex [addHex] stay, row (is [0x3B]) [] (go .numericEnd), row any [] (again .numericEnd)]
  | .decRef => [row digit [addDec] stay, row (is [0x3B]) [] (go .numericEnd), row any [] (again .numericEnd)]
  | .markupDecl | .afterDoctypeName | .namedRef | .numericEnd => []

end Table

/-! ### The interpreter -/

def isUpper (c : Nat) : Bool := decide (0x41 ≤ c) && decide (c ≤ 0x5A)
def isLower (c : Nat) : Bool := decide (0x61 ≤ c) && decide (c ≤ 0x7A)
def isDigit (c : Nat) : Bool := decide (0x30 ≤ c) && decide (c ≤ 0x39)
def isAlpha (c : Nat) : Bool := isUpper c || isLower c
def isAlnum (c : Nat) : Bool := isDigit c || isAlpha c
def isHex (c : Nat) : Bool := isDigit c || (decide (0x41 ≤ c) && decide (c ≤ 0x46)) || (decide (0x61 ≤ c) && decide (c ≤ 0x66))
def lowered (c : Nat) : Nat := if isUpper c then c + 0x20 else c

/-- Is a row for this character? -/
def On.ok : On → Option Nat → Bool
  | .any, _ => true
  | .eof, none => true
  | .eof, some _ => false
  | _, none => false
  | .white, some c => [0x9, 0xA, 0xC, 0x20].contains c
  | .upper, some c => isUpper c
  | .lower, some c => isLower c
  | .alpha, some c => isAlpha c
  | .alnum, some c => isAlnum c
  | .digit, some c => isDigit c
  | .hex, some c => isHex c
  | .is l, some c => l.contains c

/-- The current tag token; its attributes with the current one in front. -/
structure Tag where
  isEnd : Bool
  name : List Nat
  self : Bool
  attrs : List (List Nat × List Nat)

/-- The tokenizer: state, return state, temporary buffer, tokens under construction, the name of the last start tag (empty if
there was none), the character reference code, the input that is left, the tree construction stage, and whether the end of the
file has been emitted. -/
structure C (σ : Type) where
  st : St
  ret : St
  tmp : List Nat
  dtName : List Nat
  pub : Option (List Nat)
  sys : Option (List Nat)
  quirks : Bool
  tag : Tag
  com : List Nat
  last : List Nat
  code : Nat
  rest : List Nat
  sink : σ
  ended : Bool

/-- The tree construction stage. -/
structure Env (σ : Type) where
  emit : σ → Tok → σ
  switch : σ → Option St
  foreign : σ → Bool

variable {σ : Type}

def start (s : σ) (input : List Nat) : C σ :=
  { st := .data, ret := .data, tmp := [], dtName := [], pub := none, sys := none, quirks := false, tag := ⟨false, [], false, []⟩,
    com := [], last := [], code := 0, rest := input, sink := s, ended := false }

def If.ok (x : C σ) : If → Bool
  | .always => true
  | .appropriate => x.tag.isEnd && x.last != [] && x.last == x.tag.name
  | .script => x.tmp == [0x73, 0x63, 0x72, 0x69, 0x70, 0x74]

/-- Of several attributes with the same name, keep the first. -/
def firsts (l : List (List Nat × List Nat)) : List (List Nat × List Nat) :=
  l.foldl (fun acc a => if acc.any (fun b => b.1 == a.1) then acc else acc ++ [a]) []

def emit (E : Env σ) (t : Tok) (x : C σ) : C σ := { x with sink := E.emit x.sink t }

/-- Emit the current tag token; a start tag is remembered, and the tree construction stage may switch the state. -/
def emitTag (E : Env σ) (x : C σ) : C σ :=
  let attrs := firsts x.tag.attrs.reverse
  if x.tag.isEnd then emit E (.endTag x.tag.name attrs x.tag.self) x
  else
    let x := emit E (.startTag x.tag.name attrs x.tag.self) { x with last := x.tag.name }
    { x with st := (E.switch x.sink).getD x.st }

/-- Is the reference consumed as part of an attribute? -/
def inAttr (x : C σ) : Bool := [St.attrValueDq, .attrValueSq, .attrValueUq].contains x.ret

/-- Append to a register, or emit. -/
def putc (E : Env σ) (c : Nat) : Reg → C σ → C σ
  | .out, x => emit E (.char c) x
  | .name, x => { x with tag := { x.tag with name := x.tag.name ++ [c] } }
  | .attrName, x =>
    { x with tag := { x.tag with attrs := match x.tag.attrs with | [] => [] | (n, v) :: l => (n ++ [c], v) :: l } }
  | .attrVal, x =>
    { x with tag := { x.tag with attrs := match x.tag.attrs with | [] => [] | (n, v) :: l => (n, v ++ [c]) :: l } }
  | .com, x => { x with com := x.com ++ [c] }
  | .dtName, x => { x with dtName := x.dtName ++ [c] }
  | .pub, x => { x with pub := x.pub.map (· ++ [c]) }
  | .sys, x => { x with sys := x.sys.map (· ++ [c]) }
  | .tmp, x => { x with tmp := x.tmp ++ [c] }
  | .ref, x =>
    if inAttr x then
      { x with tag := { x.tag with attrs := match x.tag.attrs with | [] => [] | (n, v) :: l => (n, v ++ [c]) :: l } }
    else emit E (.char c) x

/-- Flush code points consumed as a character reference. -/
def flushRef (E : Env σ) (x : C σ) : C σ := x.tmp.foldl (fun x c => putc E c .ref x) x

/-- The value of a hexadecimal digit. -/
def hexVal (c : Nat) : Nat := if isDigit c then c - 0x30 else if isUpper c then c - 0x41 + 10 else c - 0x61 + 10

def Src.val (c : Nat) : Src → Nat
  | .cur => c
  | .low => lowered c
  | .lit n => n

def Do.run (E : Env σ) (c : Nat) : Do → C σ → C σ
  | .put r s, x => putc E (s.val c) r x
  | .emitTag, x => Spec.HtmlTok.emitTag E x
  | .emitCom, x => emit E (.comment x.com) x
  | .emitDoctype, x => emit E (.doctype x.dtName x.pub x.sys x.quirks) x
  | .emitEof, x => { emit E .eof x with ended := true }
  | .emitTmp, x => x.tmp.foldl (fun x c => emit E (.char c) x) x
  | .newStart, x => { x with tag := ⟨false, [], false, []⟩ }
  | .newEnd, x => { x with tag := ⟨true, [], false, []⟩ }
  | .newCom, x => { x with com := [] }
  | .newDoctype, x => { x with dtName := [], pub := none, sys := none, quirks := false }
  | .newAttr, x => { x with tag := { x.tag with attrs := ([], []) :: x.tag.attrs } }
  | .self, x => { x with tag := { x.tag with self := true } }
  | .quirks, x => { x with quirks := true }
  | .pubEmpty, x => { x with pub := some [] }
  | .sysEmpty, x => { x with sys := some [] }
  | .tmpEmpty, x => { x with tmp := [] }
  | .ret s, x => { x with ret := s }
  | .codeZero, x => { x with code := 0 }
  | .addHex, x => { x with code := x.code * 16 + hexVal c }
  | .addDec, x => { x with code := x.code * 10 + (c - 0x30) }
  | .flush, x => flushRef E x

/-- The first row for the character, if any. -/
def pick (rows : List Row) (c : Option Nat) (x : C σ) : Option Row := rows.find? fun r => r.on.ok c && r.cond.ok x

/-- Consume the next input character and do what the row says: switch the state, then act; or act and reconsume. -/
def plain (E : Env σ) (x : C σ) : C σ :=
  let c := x.rest.head?
  match pick (table x.st) c x with
  | none => x
  | some row =>
    let x := match row.to with
      | .stay => { x with rest := x.rest.tail }
      | .go s => { x with st := s, rest := x.rest.tail }
      | .again s => { x with st := s }
      | .againRet => { x with st := x.ret }
    row.acts.foldl (fun x d => d.run E (c.getD 0) x) x

/-- ASCII case-insensitive match of the next characters. -/
def nextIs (x : C σ) (s : List Nat) : Bool := (x.rest.take s.length).map lowered == s

/-- Markup declaration open state: "--", "DOCTYPE" in any case, or "[CDATA[", which begins a CDATA section only in foreign
content. -/
def markup (E : Env σ) (x : C σ) : C σ :=
  if x.rest.take 2 = [0x2D, 0x2D] then { x with rest := x.rest.drop 2, com := [], st := .commentStart }
  else if nextIs x [0x64, 0x6F, 0x63, 0x74, 0x79, 0x70, 0x65] then { x with rest := x.rest.drop 7, st := .doctype }
  else if x.rest.take 7 = [0x5B, 0x43, 0x44, 0x41, 0x54, 0x41, 0x5B] then
    if E.foreign x.sink then { x with rest := x.rest.drop 7, st := .cdata }
    else { x with rest := x.rest.drop 7, com := [0x5B, 0x43, 0x44, 0x41, 0x54, 0x41, 0x5B], st := .bogusComment }
  else { x with com := [], st := .bogusComment }

/-- After DOCTYPE name state. -/
def afterName (E : Env σ) (x : C σ) : C σ :=
  match x.rest with
  | [] => { emit E .eof (emit E (.doctype x.dtName x.pub x.sys true) { x with quirks := true }) with ended := true }
  | c :: l =>
    if [0x9, 0xA, 0xC, 0x20].contains c then { x with rest := l }
    else if c = 0x3E then emit E (.doctype x.dtName x.pub x.sys x.quirks) { x with rest := l, st := .data }
    else if nextIs x [0x70, 0x75, 0x62, 0x6C, 0x69, 0x63] then { x with rest := x.rest.drop 6, st := .afterPublicKw }
    else if nextIs x [0x73, 0x79, 0x73, 0x74, 0x65, 0x6D] then { x with rest := x.rest.drop 6, st := .afterSystemKw }
    else { x with quirks := true, st := .bogusDoctype }

/-- The named character references: names without the ampersand, and their code points. -/
abbrev Refs := List (List Nat × List Nat)

/-- The longest name of at most `n` characters in front of a text, with its code points. -/
def longestTo (refs : Refs) (s : List Nat) : Nat → Option (List Nat × List Nat)
  | 0 => none
  | n + 1 =>
    match refs.find? fun r => r.1 == s.take (n + 1) with
    | some r => some r
    | none => longestTo refs s n

/-- The longest name in front of a text, with its code points. -/
def longest (refs : Refs) (s : List Nat) : Option (List Nat × List Nat) := longestTo refs s s.length

/-- Named character reference state. -/
def named (E : Env σ) (refs : Refs) (x : C σ) : C σ :=
  match longest refs x.rest with
  | none => { flushRef E x with st := .ambiguousAmp }
  | some (name, cps) =>
    let x := { x with rest := x.rest.drop name.length }
    let asText := inAttr x && name.getLast? != some 0x3B &&
      (match x.rest with | [] => false | c :: _ => c == 0x3D || isAlnum c)
    let x := flushRef E { x with tmp := if asText then x.tmp ++ name else cps }
    { x with st := x.ret }

/-- The replacements of the numeric character reference end state. -/
def codes : List (Nat × Nat) := [
  (0x80, 0x20AC), (0x82, 0x201A), (0x83, 0x0192), (0x84, 0x201E), (0x85, 0x2026), (0x86, 0x2020), (0x87, 0x2021), (0x88, 0x02C6),
  (0x89, 0x2030), (0x8A, 0x0160), (0x8B, 0x2039), (0x8C, 0x0152), (0x8E, 0x017D), (0x91, 0x2018), (0x92, 0x2019), (0x93, 0x201C),
  (0x94, 0x201D), (0x95, 0x2022), (0x96, 0x2013), (0x97, 0x2014), (0x98, 0x02DC), (0x99, 0x2122), (0x9A, 0x0161), (0x9B, 0x203A),
  (0x9C, 0x0153), (0x9E, 0x017E), (0x9F, 0x0178)]

/-- The code point a numeric reference stands for. -/
def refCode (n : Nat) : Nat :=
  if n = 0 ∨ 0x10FFFF < n ∨ (0xD800 ≤ n ∧ n ≤ 0xDFFF) then 0xFFFD else (codes.lookup n).getD n

/-- Numeric character reference end state. -/
def numeric (E : Env σ) (x : C σ) : C σ :=
  let x := flushRef E { x with code := refCode x.code, tmp := [refCode x.code] }
  { x with st := x.ret }

/-- One step of the tokenizer. -/
def step (E : Env σ) (refs : Refs) (x : C σ) : C σ :=
  if x.ended then x
  else match x.st with
    | .markupDecl => markup E x
    | .afterDoctypeName => afterName E x
    | .namedRef => named E refs x
    | .numericEnd => numeric E x
    | _ => plain E x

/-- So many steps. -/
def steps (E : Env σ) (refs : Refs) : Nat → C σ → C σ
  | 0, x => x
  | n + 1, x => steps E refs n (step E refs x)

end Verif.Spec.HtmlTok
