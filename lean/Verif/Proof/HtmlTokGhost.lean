import Verif.Spec.HtmlWatch
import Mathlib.Tactic.SplitIfs
import Mathlib.Tactic.Common

/-! Helper lemmas: a tree construction stage that records the tokens as well is driven by the tokenizer like one that does not. -/

namespace Verif.Proof.HtmlTokGhost
open Verif.Model.HtmlTok Verif.Model.HtmlInput
open Verif.Spec.HtmlWatch (watch)

variable {σ : Type} {S : Sink σ}

variable {m : M (σ × List (σ × Tok))}

/-- Without the record. -/
def mp (m : M (σ × List (σ × Tok))) : M σ :=
  { inp := m.inp, st := m.st, ret := m.ret, tmp := m.tmp, dt := m.dt, startTag := m.startTag, endTag := m.endTag, com := m.com,
    kind := m.kind, last := m.last, code := m.code, sink := m.sink.1 }

/-- The result of a state function without the record. -/
def rp (r : R (σ × List (σ × Tok))) : R σ := r.map fun x => (mp x.1, x.2)

theorem appropriate_mp : appropriate (mp m) = appropriate m := rfl
theorem curTag_mp : curTag (mp m) = curTag m := rfl
theorem inAttr_mp : inAttr (mp m) = inAttr m := rfl
theorem doneO_mp (o : Option (M (σ × List (σ × Tok)))) : doneO (o.map mp) = rp (doneO o) := by cases o <;> rfl
theorem reO_mp {st : St} (o : Option (M (σ × List (σ × Tok)))) : reO st (o.map mp) = rp (reO st o) := by cases o <;> rfl
theorem ite_of {α β : Type} {F : α → β} {c : Prop} {d1 d2 : Decidable c} {a b : β} {a' b' : α} (h1 : c → a = F a') (h2 : ¬ c → b = F b') :
    @ite β c d1 a b = F (@ite α c d2 a' b') := by
  by_cases h : c
  · rw [if_pos h, if_pos h]; exact h1 h
  · rw [if_neg h, if_neg h]; exact h2 h
theorem reRet_mp : reRet (mp m) = rp (reRet m) := by
  unfold reRet
  show (match m.ret with | none => none | some st => re st (mp m)) = _
  cases m.ret <;> rfl
theorem updTag_mp {f : Tag → Tag} : updTag f (mp m) = (updTag f m).map mp := by
  unfold updTag
  exact ite_of (fun _ => rfl) fun _ => ite_of (fun _ => rfl) fun _ => rfl
theorem updAttr_mp {f : Attr → Attr} : updAttr f (mp m) = (updAttr f m).map mp := by
  unfold updAttr
  rw [curTag_mp]
  split
  · rfl
  · split
    · rfl
    · exact updTag_mp
theorem newAttr_mp : newAttr (mp m) = (newAttr m).map mp := updTag_mp
theorem unify_mp : unify (mp m) = (unify m).map mp := by
  unfold unify
  rw [curTag_mp]
  split
  · rfl
  · split
    · rfl
    · exact updTag_mp
theorem pushName_mp {c : Nat} : pushName c (mp m) = (pushName c m).map mp := updTag_mp
theorem pushAttrName_mp {c : Nat} : pushAttrName c (mp m) = (pushAttrName c m).map mp := updAttr_mp
theorem pushAttrVal_mp {c : Nat} : pushAttrVal c (mp m) = (pushAttrVal c m).map mp := updAttr_mp
theorem pushAttrVals_mp {l : List Nat} : pushAttrVals l (mp m) = (pushAttrVals l m).map mp := by
  induction l generalizing m with
  | nil => rfl
  | cons c l ih =>
    unfold pushAttrVals
    rw [pushAttrVal_mp]
    cases h : pushAttrVal c m with
    | none => rfl
    | some m' => exact ih
theorem emitTag_mp : emitTag S (mp m) = (emitTag (watch S) m).map mp := by
  unfold emitTag
  refine ite_of (fun _ => ?_) fun _ => ite_of (fun _ => rfl) fun _ => rfl
  show (match S.switch (S.emit m.sink.1 (Tok.startTag m.startTag.name (shown m.startTag.attrs) m.startTag.self)) with | some st => _ | none => _) =
    Option.map mp (match S.switch (S.emit m.sink.1 (Tok.startTag m.startTag.name (shown m.startTag.attrs) m.startTag.self)) with | some st => _ | none => _)
  cases S.switch (S.emit m.sink.1 (Tok.startTag m.startTag.name (shown m.startTag.attrs) m.startTag.self)) <;> rfl
theorem chrs_mp {l : List Nat} : chrs S l (mp m) = mp (chrs (watch S) l m) := by
  unfold chrs
  induction l generalizing m with
  | nil => rfl
  | cons c l ih => exact ih (m := chr (watch S) c m)
theorem flushRef_mp : flushRef S (mp m) = (flushRef (watch S) m).map mp := by
  unfold flushRef
  rw [inAttr_mp]
  exact ite_of (fun _ => pushAttrVals_mp) fun _ => congrArg some chrs_mp
theorem flushBack_mp : flushBack S (mp m) = rp (flushBack (watch S) m) := by
  unfold flushBack
  rw [flushRef_mp]
  cases flushRef (watch S) m with
  | none => rfl
  | some m' => exact reRet_mp
theorem notEnd_mp {st : St} : notEnd S st (mp m) = rp (notEnd (watch S) st m) := by
  unfold notEnd re
  show some (go st (chrs S m.tmp (mp (chr (watch S) 0x2F (chr (watch S) 0x3C m)))), true) = _
  rw [chrs_mp]
  rfl
theorem doneO_of {o : Option (M σ)} {o' : Option (M (σ × List (σ × Tok)))} (h : o = o'.map mp) : doneO o = rp (doneO o') := by rw [h, doneO_mp]
theorem reO_of {st : St} {o : Option (M σ)} {o' : Option (M (σ × List (σ × Tok)))} (h : o = o'.map mp) : reO st o = rp (reO st o') := by rw [h, reO_mp]
theorem map_of {o : Option (M σ)} {o' : Option (M (σ × List (σ × Tok)))} {f : M σ → M σ} {g : M (σ × List (σ × Tok)) → M (σ × List (σ × Tok))} (h : o = o'.map mp)
    (hf : ∀ m, f (mp m) = mp (g m)) : o.map f = (o'.map g).map mp := by
  rw [h]
  cases o' with
  | none => rfl
  | some m => exact congrArg some (hf m)

theorem emitGo_mp {st : St} : emitTag S (go st (mp m)) = (emitTag (watch S) (go st m)).map mp := emitTag_mp (m := go st m)
theorem flushTmp_mp {l : List Nat} : flushBack S { mp m with tmp := l } = rp (flushBack (watch S) { m with tmp := l }) := flushBack_mp (m := { m with tmp := l })
/-- A branch of a state function. -/
macro "gh" : tactic => `(tactic| repeat' first
  | rfl
  | exact flushBack_mp
  | exact notEnd_mp
  | exact reRet_mp
  | with_reducible refine doneO_of ?_
  | with_reducible refine reO_of ?_
  | refine map_of ?_ (fun m' => rfl)
  | exact emitTag_mp
  | exact emitGo_mp
  | exact flushTmp_mp
  | exact unify_mp
  | exact newAttr_mp
  | exact pushName_mp
  | exact pushAttrName_mp
  | exact pushAttrVal_mp
  | rw [appropriate_mp]
  | refine ite_of (F := rp) (fun _ => ?_) (fun _ => ?_)
  | split)

theorem g_onData {c : Option Nat} : onData S (mp m) c = rp (onData (watch S) m c) := by
  cases c <;> unfold onData <;> gh

theorem g_onRcdata {c : Option Nat} : onRcdata S (mp m) c = rp (onRcdata (watch S) m c) := by
  cases c <;> unfold onRcdata <;> gh

theorem g_onRawtext {lt : St} {c : Option Nat} : onRawtext S lt (mp m) c = rp (onRawtext (watch S) lt m c) := by
  cases c <;> unfold onRawtext <;> gh

theorem g_onPlaintext {c : Option Nat} : onPlaintext S (mp m) c = rp (onPlaintext (watch S) m c) := by
  cases c <;> unfold onPlaintext <;> gh

theorem g_onTagOpen {c : Option Nat} : onTagOpen S (mp m) c = rp (onTagOpen (watch S) m c) := by
  cases c <;> unfold onTagOpen <;> gh

theorem g_onEndTagOpen {c : Option Nat} : onEndTagOpen S (mp m) c = rp (onEndTagOpen (watch S) m c) := by
  cases c <;> unfold onEndTagOpen <;> gh

theorem g_onTagName {c : Option Nat} : onTagName S (mp m) c = rp (onTagName (watch S) m c) := by
  cases c <;> unfold onTagName <;> gh

theorem g_onRawLt {text : St} {endOpen : St} {c : Option Nat} : onRawLt S text endOpen (mp m) c = rp (onRawLt (watch S) text endOpen m c) := by
  cases c <;> unfold onRawLt <;> gh

theorem g_onRawEndOpen {text : St} {endName : St} {c : Option Nat} : onRawEndOpen S text endName (mp m) c = rp (onRawEndOpen (watch S) text endName m c) := by
  cases c <;> unfold onRawEndOpen <;> gh

theorem g_onRawEndName {text : St} {c : Option Nat} : onRawEndName S text (mp m) c = rp (onRawEndName (watch S) text m c) := by
  cases c <;> unfold onRawEndName <;> gh

theorem g_onScriptLt {c : Option Nat} : onScriptLt S (mp m) c = rp (onScriptLt (watch S) m c) := by
  cases c <;> unfold onScriptLt <;> gh

theorem g_onEscStart {next : St} {c : Option Nat} : onEscStart S next (mp m) c = rp (onEscStart (watch S) next m c) := by
  cases c <;> unfold onEscStart <;> gh

theorem g_onScriptEsc {c : Option Nat} : onScriptEsc S (mp m) c = rp (onScriptEsc (watch S) m c) := by
  cases c <;> unfold onScriptEsc <;> gh

theorem g_onScriptEscDash {c : Option Nat} : onScriptEscDash S (mp m) c = rp (onScriptEscDash (watch S) m c) := by
  cases c <;> unfold onScriptEscDash <;> gh

theorem g_onScriptEscDashDash {c : Option Nat} : onScriptEscDashDash S (mp m) c = rp (onScriptEscDashDash (watch S) m c) := by
  cases c <;> unfold onScriptEscDashDash <;> gh

theorem g_onScriptEscLt {c : Option Nat} : onScriptEscLt S (mp m) c = rp (onScriptEscLt (watch S) m c) := by
  cases c <;> unfold onScriptEscLt <;> gh

theorem g_onScriptDblStart {c : Option Nat} : onScriptDblStart S (mp m) c = rp (onScriptDblStart (watch S) m c) := by
  cases c <;> unfold onScriptDblStart <;> gh

theorem g_onScriptDbl {c : Option Nat} : onScriptDbl S (mp m) c = rp (onScriptDbl (watch S) m c) := by
  cases c <;> unfold onScriptDbl <;> gh

theorem g_onScriptDblDash {c : Option Nat} : onScriptDblDash S (mp m) c = rp (onScriptDblDash (watch S) m c) := by
  cases c <;> unfold onScriptDblDash <;> gh

theorem g_onScriptDblDashDash {c : Option Nat} : onScriptDblDashDash S (mp m) c = rp (onScriptDblDashDash (watch S) m c) := by
  cases c <;> unfold onScriptDblDashDash <;> gh

theorem g_onScriptDblLt {c : Option Nat} : onScriptDblLt S (mp m) c = rp (onScriptDblLt (watch S) m c) := by
  cases c <;> unfold onScriptDblLt <;> gh

theorem g_onScriptDblEnd {c : Option Nat} : onScriptDblEnd S (mp m) c = rp (onScriptDblEnd (watch S) m c) := by
  cases c <;> unfold onScriptDblEnd <;> gh

theorem g_onBeforeAttrName {c : Option Nat} : onBeforeAttrName (mp m) c = rp (onBeforeAttrName m c) := by
  cases c with
  | none => rfl
  | some c =>
    unfold onBeforeAttrName
    refine ite_of (F := rp) (fun _ => rfl) fun _ => ite_of (F := rp) (fun _ => rfl) fun _ => ite_of (F := rp) (fun _ => ?_) fun _ => ?_
    · rw [newAttr_mp]
      cases newAttr m with
      | none => rfl
      | some m => exact doneO_of (map_of updAttr_mp fun _ => rfl)
    · gh

theorem g_onAttrName {c : Option Nat} : onAttrName (mp m) c = rp (onAttrName m c) := by
  cases c <;> unfold onAttrName <;> gh

theorem g_onAfterAttrName {c : Option Nat} : onAfterAttrName S (mp m) c = rp (onAfterAttrName (watch S) m c) := by
  cases c <;> unfold onAfterAttrName <;> gh

theorem g_onBeforeAttrValue {c : Option Nat} : onBeforeAttrValue S (mp m) c = rp (onBeforeAttrValue (watch S) m c) := by
  cases c <;> unfold onBeforeAttrValue <;> gh

theorem g_onAttrValueQ {q : Nat} {self : St} {c : Option Nat} : onAttrValueQ S q self (mp m) c = rp (onAttrValueQ (watch S) q self m c) := by
  cases c <;> unfold onAttrValueQ <;> gh

theorem g_onAttrValueUq {c : Option Nat} : onAttrValueUq S (mp m) c = rp (onAttrValueUq (watch S) m c) := by
  cases c <;> unfold onAttrValueUq <;> gh

theorem g_onAfterAttrValue {c : Option Nat} : onAfterAttrValue S (mp m) c = rp (onAfterAttrValue (watch S) m c) := by
  cases c <;> unfold onAfterAttrValue <;> gh

theorem g_onSelfClosing {c : Option Nat} : onSelfClosing S (mp m) c = rp (onSelfClosing (watch S) m c) := by
  cases c with
  | none => rfl
  | some c =>
    unfold onSelfClosing
    refine ite_of (F := rp) (fun _ => ?_) fun _ => ?_
    · rw [updTag_mp]
      cases updTag _ m with
      | none => rfl
      | some m => exact doneO_of emitGo_mp
    · gh

theorem g_onBogusComment {c : Option Nat} : onBogusComment S (mp m) c = rp (onBogusComment (watch S) m c) := by
  cases c <;> unfold onBogusComment <;> gh

theorem g_onCommentStart {c : Option Nat} : onCommentStart S (mp m) c = rp (onCommentStart (watch S) m c) := by
  cases c <;> unfold onCommentStart <;> gh

theorem g_onCommentStartDash {c : Option Nat} : onCommentStartDash S (mp m) c = rp (onCommentStartDash (watch S) m c) := by
  cases c <;> unfold onCommentStartDash <;> gh

theorem g_onComment {c : Option Nat} : onComment S (mp m) c = rp (onComment (watch S) m c) := by
  cases c <;> unfold onComment <;> gh

theorem g_onCommentLt {c : Option Nat} : onCommentLt (mp m) c = rp (onCommentLt m c) := by
  cases c <;> unfold onCommentLt <;> gh

theorem g_onCommentBang {next : St} {other : St} {c : Option Nat} : onCommentBang next other (mp m) c = rp (onCommentBang next other m c) := by
  cases c <;> unfold onCommentBang <;> gh

theorem g_onCommentBangDashDash {c : Option Nat} : onCommentBangDashDash (mp m) c = rp (onCommentBangDashDash m c) := by
  cases c <;> unfold onCommentBangDashDash <;> gh

theorem g_onCommentEndDash {c : Option Nat} : onCommentEndDash S (mp m) c = rp (onCommentEndDash (watch S) m c) := by
  cases c <;> unfold onCommentEndDash <;> gh

theorem g_onCommentEnd {c : Option Nat} : onCommentEnd S (mp m) c = rp (onCommentEnd (watch S) m c) := by
  cases c <;> unfold onCommentEnd <;> gh

theorem g_onCommentEndBang {c : Option Nat} : onCommentEndBang S (mp m) c = rp (onCommentEndBang (watch S) m c) := by
  cases c <;> unfold onCommentEndBang <;> gh

theorem g_onDoctype {c : Option Nat} : onDoctype S (mp m) c = rp (onDoctype (watch S) m c) := by
  cases c <;> unfold onDoctype <;> gh

theorem g_onBeforeDoctypeName {c : Option Nat} : onBeforeDoctypeName S (mp m) c = rp (onBeforeDoctypeName (watch S) m c) := by
  cases c <;> unfold onBeforeDoctypeName <;> gh

theorem g_onDoctypeName {c : Option Nat} : onDoctypeName S (mp m) c = rp (onDoctypeName (watch S) m c) := by
  cases c <;> unfold onDoctypeName <;> gh

theorem g_onAfterPublicKw {c : Option Nat} : onAfterPublicKw S (mp m) c = rp (onAfterPublicKw (watch S) m c) := by
  cases c <;> unfold onAfterPublicKw <;> gh

theorem g_onBeforePublicId {c : Option Nat} : onBeforePublicId S (mp m) c = rp (onBeforePublicId (watch S) m c) := by
  cases c <;> unfold onBeforePublicId <;> gh

theorem g_onPublicId {q : Nat} {c : Option Nat} : onPublicId S q (mp m) c = rp (onPublicId (watch S) q m c) := by
  cases c <;> unfold onPublicId <;> gh

theorem g_onAfterPublicId {c : Option Nat} : onAfterPublicId S (mp m) c = rp (onAfterPublicId (watch S) m c) := by
  cases c <;> unfold onAfterPublicId <;> gh

theorem g_onBetweenIds {c : Option Nat} : onBetweenIds S (mp m) c = rp (onBetweenIds (watch S) m c) := by
  cases c <;> unfold onBetweenIds <;> gh

theorem g_onAfterSystemKw {c : Option Nat} : onAfterSystemKw S (mp m) c = rp (onAfterSystemKw (watch S) m c) := by
  cases c <;> unfold onAfterSystemKw <;> gh

theorem g_onBeforeSystemId {c : Option Nat} : onBeforeSystemId S (mp m) c = rp (onBeforeSystemId (watch S) m c) := by
  cases c <;> unfold onBeforeSystemId <;> gh

theorem g_onSystemId {q : Nat} {c : Option Nat} : onSystemId S q (mp m) c = rp (onSystemId (watch S) q m c) := by
  cases c <;> unfold onSystemId <;> gh

theorem g_onAfterSystemId {c : Option Nat} : onAfterSystemId S (mp m) c = rp (onAfterSystemId (watch S) m c) := by
  cases c <;> unfold onAfterSystemId <;> gh

theorem g_onBogusDoctype {c : Option Nat} : onBogusDoctype S (mp m) c = rp (onBogusDoctype (watch S) m c) := by
  cases c <;> unfold onBogusDoctype <;> gh

theorem g_onCdata {c : Option Nat} : onCdata S (mp m) c = rp (onCdata (watch S) m c) := by
  cases c <;> unfold onCdata <;> gh

theorem g_onCdataBracket {c : Option Nat} : onCdataBracket S (mp m) c = rp (onCdataBracket (watch S) m c) := by
  cases c <;> unfold onCdataBracket <;> gh

theorem g_onCdataEnd {c : Option Nat} : onCdataEnd S (mp m) c = rp (onCdataEnd (watch S) m c) := by
  cases c <;> unfold onCdataEnd <;> gh

theorem g_onCharRef {c : Option Nat} : onCharRef S (mp m) c = rp (onCharRef (watch S) m c) := by
  cases c <;> unfold onCharRef <;> gh

theorem g_onAmbiguousAmp {c : Option Nat} : onAmbiguousAmp S (mp m) c = rp (onAmbiguousAmp (watch S) m c) := by
  cases c <;> unfold onAmbiguousAmp <;> gh

theorem g_onNumericRef {c : Option Nat} : onNumericRef (mp m) c = rp (onNumericRef m c) := by
  cases c <;> unfold onNumericRef <;> gh

theorem g_onHexStart {c : Option Nat} : onHexStart S (mp m) c = rp (onHexStart (watch S) m c) := by
  cases c <;> unfold onHexStart <;> gh

theorem g_onDecStart {c : Option Nat} : onDecStart S (mp m) c = rp (onDecStart (watch S) m c) := by
  cases c <;> unfold onDecStart <;> gh

theorem g_onHexRef {c : Option Nat} : onHexRef (mp m) c = rp (onHexRef m c) := by
  cases c <;> unfold onHexRef <;> gh

theorem g_onDecRef {c : Option Nat} : onDecRef (mp m) c = rp (onDecRef m c) := by
  cases c <;> unfold onDecRef <;> gh

theorem g_act {st : St} {c : Option Nat} : act S st (mp m) c = rp (act (watch S) st m c) := by
  cases st
  case data => exact g_onData
  case rcdata => exact g_onRcdata
  case rawtext => exact g_onRawtext
  case scriptData => exact g_onRawtext
  case plaintext => exact g_onPlaintext
  case tagOpen => exact g_onTagOpen
  case endTagOpen => exact g_onEndTagOpen
  case tagName => exact g_onTagName
  case rcdataLt => exact g_onRawLt
  case rcdataEndOpen => exact g_onRawEndOpen
  case rcdataEndName => exact g_onRawEndName
  case rawtextLt => exact g_onRawLt
  case rawtextEndOpen => exact g_onRawEndOpen
  case rawtextEndName => exact g_onRawEndName
  case scriptLt => exact g_onScriptLt
  case scriptEndOpen => exact g_onRawEndOpen
  case scriptEndName => exact g_onRawEndName
  case scriptEscStart => exact g_onEscStart
  case scriptEscStartDash => exact g_onEscStart
  case scriptEsc => exact g_onScriptEsc
  case scriptEscDash => exact g_onScriptEscDash
  case scriptEscDashDash => exact g_onScriptEscDashDash
  case scriptEscLt => exact g_onScriptEscLt
  case scriptEscEndOpen => exact g_onRawEndOpen
  case scriptEscEndName => exact g_onRawEndName
  case scriptDblStart => exact g_onScriptDblStart
  case scriptDbl => exact g_onScriptDbl
  case scriptDblDash => exact g_onScriptDblDash
  case scriptDblDashDash => exact g_onScriptDblDashDash
  case scriptDblLt => exact g_onScriptDblLt
  case scriptDblEnd => exact g_onScriptDblEnd
  case beforeAttrName => exact g_onBeforeAttrName
  case attrName => exact g_onAttrName
  case afterAttrName => exact g_onAfterAttrName
  case beforeAttrValue => exact g_onBeforeAttrValue
  case attrValueDq => exact g_onAttrValueQ
  case attrValueSq => exact g_onAttrValueQ
  case attrValueUq => exact g_onAttrValueUq
  case afterAttrValue => exact g_onAfterAttrValue
  case selfClosing => exact g_onSelfClosing
  case bogusComment => exact g_onBogusComment
  case commentStart => exact g_onCommentStart
  case commentStartDash => exact g_onCommentStartDash
  case comment => exact g_onComment
  case commentLt => exact g_onCommentLt
  case commentLtBang => exact g_onCommentBang
  case commentLtBangDash => exact g_onCommentBang
  case commentLtBangDashDash => exact g_onCommentBangDashDash
  case commentEndDash => exact g_onCommentEndDash
  case commentEnd => exact g_onCommentEnd
  case commentEndBang => exact g_onCommentEndBang
  case doctype => exact g_onDoctype
  case beforeDoctypeName => exact g_onBeforeDoctypeName
  case doctypeName => exact g_onDoctypeName
  case afterPublicKw => exact g_onAfterPublicKw
  case beforePublicId => exact g_onBeforePublicId
  case publicIdDq => exact g_onPublicId
  case publicIdSq => exact g_onPublicId
  case afterPublicId => exact g_onAfterPublicId
  case betweenIds => exact g_onBetweenIds
  case afterSystemKw => exact g_onAfterSystemKw
  case beforeSystemId => exact g_onBeforeSystemId
  case systemIdDq => exact g_onSystemId
  case systemIdSq => exact g_onSystemId
  case afterSystemId => exact g_onAfterSystemId
  case bogusDoctype => exact g_onBogusDoctype
  case cdata => exact g_onCdata
  case cdataBracket => exact g_onCdataBracket
  case cdataEnd => exact g_onCdataEnd
  case charRef => exact g_onCharRef
  case ambiguousAmp => exact g_onAmbiguousAmp
  case numericRef => exact g_onNumericRef
  case hexStart => exact g_onHexStart
  case decStart => exact g_onDecStart
  case hexRef => exact g_onHexRef
  case decRef => exact g_onDecRef
  case markupDecl => exact rfl
  case afterDoctypeName => exact rfl
  case namedRef => exact rfl
  case numericEnd => exact rfl

theorem skip_mp {n : Nat} : skip n (mp m) = (skip n m).map mp := by
  unfold skip
  show (match consumeN m.inp n with | none => none | some s => some { mp m with inp := s }) = _
  cases consumeN m.inp n <;> rfl

theorem next_mp : next (mp m) = (next m).map fun x => (mp x.1, x.2) := by
  unfold next
  show (match consume m.inp with | none => none | some (s, c) => some ({ mp m with inp := s }, if s.eofConsumed then none else some c)) = _
  cases consume m.inp <;> rfl

theorem opt_of {o : Option (M σ)} {o' : Option (M (σ × List (σ × Tok)))} (h : o = o'.map mp) {β γ : Type} {F : Option β → Option γ} (h0 : F none = none)
    {f : M σ → Option γ} {g : M (σ × List (σ × Tok)) → Option β}
    (hf : ∀ m, f (mp m) = F (g m)) : o.bind f = F (o'.bind g) := by
  rw [h]
  cases o' with
  | none => exact h0.symm
  | some m => exact hf m

theorem markupDecl_mp : markupDecl S (mp m) = (markupDecl (watch S) m).map mp := by
  unfold markupDecl
  show (match matchLabel m.inp dashStr false false, matchLabel m.inp doctypeStr false true, matchLabel m.inp cdataStr false false with
    | some true, _, _ => (skip 2 (mp m)).map fun m => go .commentStart (newComment [] m)
    | _, some true, _ => (skip 7 (mp m)).map (go .doctype)
    | _, _, some true =>
      (skip 7 (mp m)).map fun (m : M σ) =>
        if S.node m.sink = some true then go .cdata m
        else go .bogusComment (newComment cdataStr m)
    | _, _, _ => some (go .bogusComment (newComment [] (mp m)))) = _
  generalize matchLabel m.inp dashStr false false = a
  generalize matchLabel m.inp doctypeStr false true = b
  generalize matchLabel m.inp cdataStr false false = c
  have e1 : ((skip 2 (mp m)).map fun m => go .commentStart (newComment [] m)) = ((skip 2 m).map fun m => go .commentStart (newComment [] m)).map mp :=
    map_of skip_mp fun _ => rfl
  have e2 : (skip 7 (mp m)).map (go .doctype) = ((skip 7 m).map (go .doctype)).map mp := map_of skip_mp fun _ => rfl
  have e3 : ((skip 7 (mp m)).map fun (m : M σ) => if S.node m.sink = some true then go .cdata m else go .bogusComment (newComment cdataStr m)) =
      ((skip 7 m).map fun m => if (watch S).node m.sink = some true then go .cdata m else go .bogusComment (newComment cdataStr m)).map mp :=
    map_of skip_mp fun m => ite_of (fun _ => rfl) fun _ => rfl
  rcases a with _ | _ | _ <;> rcases b with _ | _ | _ <;> rcases c with _ | _ | _ <;>
    first | exact e1 | exact e2 | exact e3 | rfl

theorem afterDoctypeName_mp {c : Option Nat} : afterDoctypeName S (mp m) c = (afterDoctypeName (watch S) m c).map fun x => (mp x.1, x.2) := by
  cases c with
  | none => rfl
  | some c =>
    unfold afterDoctypeName
    refine ite_of (fun _ => rfl) fun _ => ite_of (fun _ => rfl) fun _ => ?_
    show (match matchLabel m.inp publicStr true true, matchLabel m.inp systemStr true true with
      | some true, _ => (skip 5 (mp m)).map fun m => (go .afterPublicKw m, After.flush)
      | _, some true => (skip 5 (mp m)).map fun m => (go .afterSystemKw m, After.flush)
      | _, _ => some (go .bogusDoctype (quirks (mp m)), After.re)) = _
    rw [skip_mp]
    generalize matchLabel m.inp publicStr true true = a
    generalize matchLabel m.inp systemStr true true = b
    rcases a with _ | _ | _ <;> rcases b with _ | _ | _ <;> rcases skip 5 m with _ | _ <;> rfl

theorem ret_mp (m : M (σ × List (σ × Tok))) : (match (mp m).ret with | none => none | some st => some (go st (mp m))) =
    (match m.ret with | none => none | some st => some (go st m)).map mp := by
  show (match m.ret with | none => none | some st => some (go st (mp m))) = _
  cases m.ret <;> rfl

theorem numericEnd_mp : onNumericEnd S (mp m) = (onNumericEnd (watch S) m).map mp := by
  unfold onNumericEnd
  dsimp only
  have := flushRef_mp (S := S) (m := { m with code := codePoint m.code, tmp := [codePoint m.code] })
  change flushRef S { mp m with code := codePoint (mp m).code, tmp := [codePoint (mp m).code] } = _ at this
  rw [this]
  cases flushRef (watch S) { m with code := codePoint m.code, tmp := [codePoint m.code] } with
  | none => rfl
  | some m => exact ret_mp m

theorem namedRef_mp {find : Find} : namedRef S find (mp m) = (namedRef (watch S) find m).map mp := by
  unfold namedRef
  have e : (mp m).inp.c = m.inp.c := rfl
  rw [e]
  match find m.inp.c with
  | none => rfl
  | some none =>
    dsimp only
    rw [flushRef_mp]
    cases flushRef (watch S) m <;> rfl
  | some (some (name, a, b)) =>
    dsimp only
    have e := skip_mp (m := { m with tmp := m.tmp ++ name }) (n := name.length)
    change skip name.length { mp m with tmp := (mp m).tmp ++ name } = _ at e
    rw [e]
    cases skip name.length { m with tmp := m.tmp ++ name } with
    | none => rfl
    | some m =>
      dsimp only [Option.map_some]
      have e : (mp m).inp.c = m.inp.c := rfl
      rw [e]
      cases m.inp.c with
      | nil =>
        dsimp only
        have e := flushRef_mp (S := S) (m := { m with tmp := if b ≠ 0 then [a, b] else [a] })
        first | rw [e] | (change flushRef S { mp m with tmp := if b ≠ 0 then [a, b] else [a] } = _ at e; rw [e])
        cases flushRef (watch S) { m with tmp := if b ≠ 0 then [a, b] else [a] } with
        | none => rfl
        | some m => exact ret_mp m
      | cons c l =>
        dsimp only
        rw [inAttr_mp]
        by_cases h : (inAttr m && name.getLast? != some 0x3B && (c == 0x3D || Model.Infra.isAsciiAlphanumeric c)) = true
        · rw [if_pos h, if_pos h]
          have e := flushRef_mp (S := S) (m := m)
          rw [e]
          cases flushRef (watch S) m with
          | none => rfl
          | some m => exact ret_mp m
        · rw [if_neg h, if_neg h]
          have e := flushRef_mp (S := S) (m := { m with tmp := if b ≠ 0 then [a, b] else [a] })
          first | rw [e] | (change flushRef S { mp m with tmp := if b ≠ 0 then [a, b] else [a] } = _ at e; rw [e])
          cases flushRef (watch S) { m with tmp := if b ≠ 0 then [a, b] else [a] } with
          | none => rfl
          | some m => exact ret_mp m

/-- The machine. -/
theorem run_mp (find : Find) (f : Nat) : ∀ m : M (σ × List (σ × Tok)),
    run S find f (mp m) = (run (watch S) find f m).map mp ∧ flush S find f (mp m) = (flush (watch S) find f m).map mp ∧
      flushLoop S find f (mp m) = (flushLoop (watch S) find f m).map mp := by
  induction f with
  | zero => intro m; unfold run flush flushLoop; exact ⟨rfl, rfl, rfl⟩
  | succ f ih =>
    intro m
    refine ⟨?_, ?_, ?_⟩
    · unfold run
      have e : (mp m).st = m.st := rfl
      rw [e]
      generalize m.st = st
      cases st
      case markupDecl =>
        refine ite_of (fun _ => rfl) fun _ => ?_
        rw [markupDecl_mp]
        cases markupDecl (watch S) m with
        | none => rfl
        | some m => exact (ih m).2.1
      case afterDoctypeName =>
        refine ite_of (fun _ => rfl) fun _ => ?_
        rw [next_mp]
        match next m with
        | none => rfl
        | some (m, c) =>
          dsimp only [Option.map_some]
          rw [afterDoctypeName_mp]
          match afterDoctypeName (watch S) m c with
          | none => rfl
          | some (m, .done) => rfl
          | some (m, .flush) => exact (ih m).2.1
          | some (m, .re) =>
            dsimp only [Option.map_some]
            have := (ih { m with inp := reconsume m.inp }).1
            change run S find f { mp m with inp := reconsume (mp m).inp } = _ at this
            rw [this]
            cases run (watch S) find f { m with inp := reconsume m.inp } with
            | none => rfl
            | some m => exact (ih m).2.1
      case namedRef =>
        refine ite_of (fun _ => rfl) fun _ => ?_
        rw [namedRef_mp]
        cases namedRef (watch S) find m with
        | none => rfl
        | some m => exact (ih m).2.1
      case numericEnd => exact numericEnd_mp
      all_goals
        dsimp only
        rw [next_mp]
        rcases next m with _ | ⟨m, c⟩
        · rfl
        · dsimp only [Option.map_some]
          rw [g_act]
          generalize act (watch S) _ m c = r
          rcases r with _ | ⟨m, _ | _⟩
          · rfl
          · rfl
          · exact (ih { m with inp := reconsume m.inp }).1
    · unfold flush
      exact ite_of (fun _ => rfl) fun _ => (ih m).2.2
    · unfold flushLoop
      refine ite_of (fun _ => ite_of (fun _ => (ih m).1) fun _ => rfl) fun _ => ?_
      rw [(ih m).1]
      cases run (watch S) find f m with
      | none => rfl
      | some m' => exact ite_of (fun _ => rfl) fun _ => (ih m').2.2

theorem push_mp (find : Find) (f c : Nat) : push S find f c (mp m) = (push (watch S) find f c m).map mp :=
  (run_mp find f { m with inp := { m.inp with c := m.inp.c ++ [c] } }).1

theorem pushAll_mp (find : Find) (f : Nat) (l : List Nat) : pushAll S find f l (mp m) = (pushAll (watch S) find f l m).map mp := by
  induction l generalizing m with
  | nil => rfl
  | cons c l ih =>
    unfold Verif.Model.HtmlTok.pushAll
    rw [push_mp]
    cases push (watch S) find f c m with
    | none => rfl
    | some m => exact ih

theorem feed_mp (find : Find) (f : Nat) (l : List Nat) (cr : Bool) : feed S find f cr l (mp m) = (feed (watch S) find f cr l m).map fun x => (x.1, mp x.2) := by
  induction l generalizing m cr with
  | nil => rfl
  | cons c l ih =>
    unfold feed
    rw [pushAll_mp]
    cases pushAll (watch S) find f ((pushCodePoint cr c).2.filterMap emitOf) m with
    | none => rfl
    | some m => exact ih _

theorem pushEof_mp (find : Find) (f : Nat) (cr : Bool) : pushEof S find f cr (mp m) = (pushEof (watch S) find f cr m).map mp := by
  unfold Verif.Model.HtmlTok.pushEof
  refine ite_of (fun _ => ?_) fun _ => (run_mp find f { m with inp := { m.inp with eof := true } }).1
  have := push_mp (S := S) find f 0xA (m := { m with inp := { m.inp with eof := true } })
  change push S find f 0xA { mp m with inp := { (mp m).inp with eof := true } } = _ at this
  rw [this]
  cases push (watch S) find f 0xA { m with inp := { m.inp with eof := true } } with
  | none => rfl
  | some m => exact (run_mp find f m).1

/-- A text is tokenized as without the record. -/
theorem tokenize_mp (find : Find) (f : Nat) (s : σ) (l : List Nat) : tokenize S find f s l = (tokenize (watch S) find f (s, []) l).map mp := by
  unfold tokenize
  have := feed_mp (S := S) find f l false (m := init (s, []))
  change feed S find f false l (init s) = _ at this
  rw [this]
  match feed (watch S) find f false l (init (s, [])) with
  | none => rfl
  | some (cr, m) => exact pushEof_mp find f cr

end Verif.Proof.HtmlTokGhost
