import Verif.Model.HtmlTok
import Verif.Spec.HtmlTok
/-
What is needed to compare the tokenizer of the library with that of the standard: the names of the states and the tokens, the
tree construction stage, and the look up of named character references.
-/
namespace Verif.Spec.HtmlTokBridge
open Verif.Model.HtmlTok
variable {σ : Type}

/-- The names of the states in the standard. -/
def stOf : St → Verif.Spec.HtmlTok.St
  | .data => .data
  | .rcdata => .rcdata
  | .rawtext => .rawtext
  | .scriptData => .scriptData
  | .plaintext => .plaintext
  | .tagOpen => .tagOpen
  | .endTagOpen => .endTagOpen
  | .tagName => .tagName
  | .rcdataLt => .rcdataLt
  | .rcdataEndOpen => .rcdataEndOpen
  | .rcdataEndName => .rcdataEndName
  | .rawtextLt => .rawtextLt
  | .rawtextEndOpen => .rawtextEndOpen
  | .rawtextEndName => .rawtextEndName
  | .scriptLt => .scriptLt
  | .scriptEndOpen => .scriptEndOpen
  | .scriptEndName => .scriptEndName
  | .scriptEscStart => .scriptEscStart
  | .scriptEscStartDash => .scriptEscStartDash
  | .scriptEsc => .scriptEsc
  | .scriptEscDash => .scriptEscDash
  | .scriptEscDashDash => .scriptEscDashDash
  | .scriptEscLt => .scriptEscLt
  | .scriptEscEndOpen => .scriptEscEndOpen
  | .scriptEscEndName => .scriptEscEndName
  | .scriptDblStart => .scriptDblStart
  | .scriptDbl => .scriptDbl
  | .scriptDblDash => .scriptDblDash
  | .scriptDblDashDash => .scriptDblDashDash
  | .scriptDblLt => .scriptDblLt
  | .scriptDblEnd => .scriptDblEnd
  | .beforeAttrName => .beforeAttrName
  | .attrName => .attrName
  | .afterAttrName => .afterAttrName
  | .beforeAttrValue => .beforeAttrValue
  | .attrValueDq => .attrValueDq
  | .attrValueSq => .attrValueSq
  | .attrValueUq => .attrValueUq
  | .afterAttrValue => .afterAttrValue
  | .selfClosing => .selfClosing
  | .bogusComment => .bogusComment
  | .markupDecl => .markupDecl
  | .commentStart => .commentStart
  | .commentStartDash => .commentStartDash
  | .comment => .comment
  | .commentLt => .commentLt
  | .commentLtBang => .commentLtBang
  | .commentLtBangDash => .commentLtBangDash
  | .commentLtBangDashDash => .commentLtBangDashDash
  | .commentEndDash => .commentEndDash
  | .commentEnd => .commentEnd
  | .commentEndBang => .commentEndBang
  | .doctype => .doctype
  | .beforeDoctypeName => .beforeDoctypeName
  | .doctypeName => .doctypeName
  | .afterDoctypeName => .afterDoctypeName
  | .afterPublicKw => .afterPublicKw
  | .beforePublicId => .beforePublicId
  | .publicIdDq => .publicIdDq
  | .publicIdSq => .publicIdSq
  | .afterPublicId => .afterPublicId
  | .betweenIds => .betweenIds
  | .afterSystemKw => .afterSystemKw
  | .beforeSystemId => .beforeSystemId
  | .systemIdDq => .systemIdDq
  | .systemIdSq => .systemIdSq
  | .afterSystemId => .afterSystemId
  | .bogusDoctype => .bogusDoctype
  | .cdata => .cdata
  | .cdataBracket => .cdataBracket
  | .cdataEnd => .cdataEnd
  | .charRef => .charRef
  | .namedRef => .namedRef
  | .ambiguousAmp => .ambiguousAmp
  | .numericRef => .numericRef
  | .hexStart => .hexStart
  | .decStart => .decStart
  | .hexRef => .hexRef
  | .decRef => .decRef
  | .numericEnd => .numericEnd

/-- A token of the standard as the token of the model: missing identifiers become empty. -/
def erase : Spec.HtmlTok.Tok → Tok
  | .doctype n p s q => .doctype ⟨n, p.getD [], s.getD [], q⟩
  | .startTag n a s => .startTag n a s
  | .endTag n a s => .endTag n a s
  | .comment s => .comment s
  | .char c => .char c
  | .eof => .eof

/-- The same tree construction stage for the standard: content is foreign if there is an adjusted current node that is not in the
HTML namespace. -/
def envOf (S : Sink σ) : Spec.HtmlTok.Env σ where
  emit s t := S.emit s (erase t)
  switch s := (S.switch s).map stOf
  foreign s := S.node s == some false

/-- The states the tree construction stage switches to. -/
def SwitchOk (S : Sink σ) : Prop := ∀ s st, S.switch s = some st → st = .rcdata ∨ st = .rawtext ∨ st = .scriptData ∨ st = .plaintext

/-- The look up of names is defined and finds prefixes. -/
def FindOk (P : Nat → Prop) (find : Find) : Prop :=
  ∀ s, (∀ c ∈ s, P c) → ∃ r, find s = some r ∧ ∀ n a b, r = some (n, a, b) → n <+: s

/-- The look up gives the longest name. -/
def Agree (P : Nat → Prop) (find : Find) (refs : Spec.HtmlTok.Refs) : Prop :=
  ∀ s, (∀ c ∈ s, P c) → ∃ r, find s = some r ∧
    (r.map fun (n, a, b) => (n, if b ≠ 0 then [a, b] else [a])) = Spec.HtmlTok.longest refs s

/-- Where the code is known to go another way than the standard: a NUL in a comment, the end of a name other than "script"
behind "<!--<" in a script, a CDATA section where there is an adjusted current node, and a numeric reference of 2^32 or more. -/
def Trouble (S : Sink σ) (x : Spec.HtmlTok.C σ) : Prop :=
  (x.st = .comment ∧ x.rest.head? = some 0) ∨
  (x.st = .scriptDblStart ∧ x.tmp ≠ [0x73, 0x63, 0x72, 0x69, 0x70, 0x74] ∧
    ∃ c ∈ [0x9, 0xA, 0xC, 0x20, 0x2F, 0x3E], x.rest.head? = some c) ∨
  (x.st = .markupDecl ∧ x.rest.take 7 = [0x5B, 0x43, 0x44, 0x41, 0x54, 0x41, 0x5B] ∧ S.node x.sink ≠ none) ∨
  (x.st = .numericEnd ∧ 2 ^ 32 ≤ x.code)

end Verif.Spec.HtmlTokBridge
