import Verif.Model.HtmlTok
import Mathlib.Tactic.SplitIfs
import Mathlib.Tactic.Common

/-! Helper lemmas: what every token keeps in the tree construction stage, the tokenizer keeps. -/

namespace Verif.Proof.HtmlTokKeep
open Verif.Model.HtmlTok Verif.Model.HtmlInput

variable {σ : Type} {I : σ → Prop} {S : Sink σ}

/-- A result that may be undefined. -/
def Ko (I : σ → Prop) (o : Option (M σ)) : Prop := ∀ m, o = some m → I m.sink

/-- The result of a state function. -/
def Kr (I : σ → Prop) (r : R σ) : Prop := ∀ m b, r = some (m, b) → I m.sink

/-- What every token keeps. -/
def Kept (I : σ → Prop) (S : Sink σ) : Prop := ∀ s t, I s → I (S.emit s t)

variable {m : M σ}

theorem ko_none : Ko I (none : Option (M σ)) := by intro m h; cases h
theorem ko_some (h : I m.sink) : Ko I (some m) := by rintro m ⟨⟩; exact h
theorem kr_none : Kr I (none : R σ) := by intro m b h; cases h
theorem kr_done (h : I m.sink) : Kr I (done m) := by rintro m b ⟨⟩; exact h
theorem kr_re {st : St} (h : I m.sink) : Kr I (re st m) := by rintro m b ⟨⟩; exact h
theorem kr_reRet (h : I m.sink) : Kr I (reRet m) := by unfold reRet; split; exacts [kr_none, kr_re h]
theorem kr_doneO {o : Option (M σ)} (h : Ko I o) : Kr I (doneO o) := by cases o; exacts [kr_none, kr_done (h _ rfl)]
theorem kr_reO {st : St} {o : Option (M σ)} (h : Ko I o) : Kr I (reO st o) := by cases o; exacts [kr_none, kr_re (h _ rfl)]
theorem ko_map {o : Option (M σ)} {f : M σ → M σ} (h : Ko I o) (hf : ∀ m, I m.sink → I (f m).sink) : Ko I (o.map f) := by
  cases o; exacts [ko_none, ko_some (hf _ (h _ rfl))]
theorem ko_updTag {f : Tag → Tag} (h : I m.sink) : Ko I (updTag f m) := by
  unfold updTag; split_ifs; exacts [ko_some h, ko_some h, ko_none]
theorem ko_newAttr (h : I m.sink) : Ko I (newAttr m) := ko_updTag h
theorem ko_updAttr {f : Attr → Attr} (h : I m.sink) : Ko I (updAttr f m) := by
  unfold updAttr; split
  · exact ko_none
  · split; exacts [ko_none, ko_updTag h]
theorem ko_unify (h : I m.sink) : Ko I (unify m) := by
  unfold unify; split
  · exact ko_none
  · split; exacts [ko_none, ko_updTag h]
theorem ko_pushName {c : Nat} (h : I m.sink) : Ko I (pushName c m) := ko_updTag h
theorem ko_pushAttrName {c : Nat} (h : I m.sink) : Ko I (pushAttrName c m) := ko_updAttr h
theorem ko_pushAttrVal {c : Nat} (h : I m.sink) : Ko I (pushAttrVal c m) := ko_updAttr h
theorem ko_pushAttrVals {l : List Nat} (h : I m.sink) : Ko I (pushAttrVals l m) := by
  induction l generalizing m with
  | nil => exact ko_some h
  | cons c l ih =>
    unfold pushAttrVals
    split
    · exact ko_none
    · next m' hm => exact ih (ko_pushAttrVal h m' hm)
theorem ko_emitTag (hI : Kept I S) (h : I m.sink) : Ko I (emitTag S m) := by
  unfold emitTag
  split_ifs
  · dsimp only
    split
    · exact ko_some (hI _ _ h)
    · exact ko_some (hI _ _ h)
  · exact ko_some (hI _ _ h)
  · exact ko_none
theorem i_chrs {l : List Nat} (hI : Kept I S) (h : I m.sink) : I (chrs S l m).sink := by
  unfold chrs
  induction l generalizing m with
  | nil => exact h
  | cons c l ih => exact ih (m := chr S c m) (hI _ _ h)
theorem ko_flushRef (hI : Kept I S) (h : I m.sink) : Ko I (flushRef S m) := by
  unfold flushRef; split_ifs; exacts [ko_pushAttrVals h, ko_some (i_chrs hI h)]
theorem kr_flushBack (hI : Kept I S) (h : I m.sink) : Kr I (flushBack S m) := by
  unfold flushBack
  split
  · exact kr_none
  · next m' hm => exact kr_reRet (ko_flushRef hI h m' hm)
theorem kr_notEnd {st : St} (hI : Kept I S) (h : I m.sink) : Kr I (notEnd S st m) := kr_re (i_chrs hI (hI _ _ (hI _ _ h)))

theorem kr_eofDoctype (hI : Kept I S) (h : I m.sink) : Kr I (eofDoctype S m) := kr_done (hI _ _ (hI _ _ h))

/-- The state of the tree construction stage. -/
macro "kp_i" hI:term:max h:term:max : tactic => `(tactic| repeat first | exact $h | exact i_chrs $hI $h | apply $hI)

/-- A branch of a state function. -/
macro "kp" hI:term:max h:term:max : tactic => `(tactic| repeat' first
  | exact kr_none
  | exact kr_flushBack $hI $h
  | exact kr_notEnd $hI $h
  | exact kr_reRet $h
  | ((with_reducible refine kr_done ?_); kp_i $hI $h)
  | ((with_reducible refine kr_re ?_); kp_i $hI $h)
  | with_reducible refine kr_doneO ?_
  | with_reducible refine kr_reO ?_
  | refine ko_map ?_ (fun m' h' => h')
  | exact kr_eofDoctype $hI $h
  | exact ko_emitTag $hI $h
  | exact ko_unify $h
  | exact ko_newAttr $h
  | exact ko_pushName $h
  | exact ko_pushAttrName $h
  | exact ko_pushAttrVal $h
  | with_reducible refine ko_some ?_
  | split)

theorem k_onData (hI : Kept I S) (h : I m.sink)  {c : Option Nat} : Kr I (onData S m c) := by
  cases c <;> unfold onData <;> kp hI h

theorem k_onRcdata (hI : Kept I S) (h : I m.sink)  {c : Option Nat} : Kr I (onRcdata S m c) := by
  cases c <;> unfold onRcdata <;> kp hI h

theorem k_onRawtext (hI : Kept I S) (h : I m.sink) {lt : St} {c : Option Nat} : Kr I (onRawtext S lt m c) := by
  cases c <;> unfold onRawtext <;> kp hI h

theorem k_onPlaintext (hI : Kept I S) (h : I m.sink)  {c : Option Nat} : Kr I (onPlaintext S m c) := by
  cases c <;> unfold onPlaintext <;> kp hI h

theorem k_onTagOpen (hI : Kept I S) (h : I m.sink)  {c : Option Nat} : Kr I (onTagOpen S m c) := by
  cases c <;> unfold onTagOpen <;> kp hI h

theorem k_onEndTagOpen (hI : Kept I S) (h : I m.sink)  {c : Option Nat} : Kr I (onEndTagOpen S m c) := by
  cases c <;> unfold onEndTagOpen <;> kp hI h

theorem k_onTagName (hI : Kept I S) (h : I m.sink)  {c : Option Nat} : Kr I (onTagName S m c) := by
  cases c <;> unfold onTagName <;> kp hI h

theorem k_onRawLt (hI : Kept I S) (h : I m.sink) {text : St} {endOpen : St} {c : Option Nat} : Kr I (onRawLt S text endOpen m c) := by
  cases c <;> unfold onRawLt <;> kp hI h

theorem k_onRawEndOpen (hI : Kept I S) (h : I m.sink) {text : St} {endName : St} {c : Option Nat} : Kr I (onRawEndOpen S text endName m c) := by
  cases c <;> unfold onRawEndOpen <;> kp hI h

theorem k_onRawEndName (hI : Kept I S) (h : I m.sink) {text : St} {c : Option Nat} : Kr I (onRawEndName S text m c) := by
  cases c <;> unfold onRawEndName <;> kp hI h

theorem k_onScriptLt (hI : Kept I S) (h : I m.sink)  {c : Option Nat} : Kr I (onScriptLt S m c) := by
  cases c <;> unfold onScriptLt <;> kp hI h

theorem k_onEscStart (hI : Kept I S) (h : I m.sink) {next : St} {c : Option Nat} : Kr I (onEscStart S next m c) := by
  cases c <;> unfold onEscStart <;> kp hI h

theorem k_onScriptEsc (hI : Kept I S) (h : I m.sink)  {c : Option Nat} : Kr I (onScriptEsc S m c) := by
  cases c <;> unfold onScriptEsc <;> kp hI h

theorem k_onScriptEscDash (hI : Kept I S) (h : I m.sink)  {c : Option Nat} : Kr I (onScriptEscDash S m c) := by
  cases c <;> unfold onScriptEscDash <;> kp hI h

theorem k_onScriptEscDashDash (hI : Kept I S) (h : I m.sink)  {c : Option Nat} : Kr I (onScriptEscDashDash S m c) := by
  cases c <;> unfold onScriptEscDashDash <;> kp hI h

theorem k_onScriptEscLt (hI : Kept I S) (h : I m.sink)  {c : Option Nat} : Kr I (onScriptEscLt S m c) := by
  cases c <;> unfold onScriptEscLt <;> kp hI h

theorem k_onScriptDblStart (hI : Kept I S) (h : I m.sink)  {c : Option Nat} : Kr I (onScriptDblStart S m c) := by
  cases c <;> unfold onScriptDblStart <;> kp hI h

theorem k_onScriptDbl (hI : Kept I S) (h : I m.sink)  {c : Option Nat} : Kr I (onScriptDbl S m c) := by
  cases c <;> unfold onScriptDbl <;> kp hI h

theorem k_onScriptDblDash (hI : Kept I S) (h : I m.sink)  {c : Option Nat} : Kr I (onScriptDblDash S m c) := by
  cases c <;> unfold onScriptDblDash <;> kp hI h

theorem k_onScriptDblDashDash (hI : Kept I S) (h : I m.sink)  {c : Option Nat} : Kr I (onScriptDblDashDash S m c) := by
  cases c <;> unfold onScriptDblDashDash <;> kp hI h

theorem k_onScriptDblLt (hI : Kept I S) (h : I m.sink)  {c : Option Nat} : Kr I (onScriptDblLt S m c) := by
  cases c <;> unfold onScriptDblLt <;> kp hI h

theorem k_onScriptDblEnd (hI : Kept I S) (h : I m.sink)  {c : Option Nat} : Kr I (onScriptDblEnd S m c) := by
  cases c <;> unfold onScriptDblEnd <;> kp hI h

theorem k_onBeforeAttrName (hI : Kept I S) (h : I m.sink)  {c : Option Nat} : Kr I (onBeforeAttrName m c) := by
  cases c <;> unfold onBeforeAttrName <;> kp hI h
  all_goals (rename_i hq; have hx := ko_newAttr h _ hq; exact ko_updAttr hx)

theorem k_onAttrName (hI : Kept I S) (h : I m.sink)  {c : Option Nat} : Kr I (onAttrName m c) := by
  cases c <;> unfold onAttrName <;> kp hI h

theorem k_onAfterAttrName (hI : Kept I S) (h : I m.sink)  {c : Option Nat} : Kr I (onAfterAttrName S m c) := by
  cases c <;> unfold onAfterAttrName <;> kp hI h

theorem k_onBeforeAttrValue (hI : Kept I S) (h : I m.sink)  {c : Option Nat} : Kr I (onBeforeAttrValue S m c) := by
  cases c <;> unfold onBeforeAttrValue <;> kp hI h

theorem k_onAttrValueQ (hI : Kept I S) (h : I m.sink) {q : Nat} {self : St} {c : Option Nat} : Kr I (onAttrValueQ S q self m c) := by
  cases c <;> unfold onAttrValueQ <;> kp hI h

theorem k_onAttrValueUq (hI : Kept I S) (h : I m.sink)  {c : Option Nat} : Kr I (onAttrValueUq S m c) := by
  cases c <;> unfold onAttrValueUq <;> kp hI h

theorem k_onAfterAttrValue (hI : Kept I S) (h : I m.sink)  {c : Option Nat} : Kr I (onAfterAttrValue S m c) := by
  cases c <;> unfold onAfterAttrValue <;> kp hI h

theorem k_onSelfClosing (hI : Kept I S) (h : I m.sink)  {c : Option Nat} : Kr I (onSelfClosing S m c) := by
  cases c <;> unfold onSelfClosing <;> kp hI h
  all_goals (rename_i hq; have hx := ko_updTag h _ hq; exact ko_emitTag hI hx)

theorem k_onBogusComment (hI : Kept I S) (h : I m.sink)  {c : Option Nat} : Kr I (onBogusComment S m c) := by
  cases c <;> unfold onBogusComment <;> kp hI h

theorem k_onCommentStart (hI : Kept I S) (h : I m.sink)  {c : Option Nat} : Kr I (onCommentStart S m c) := by
  cases c <;> unfold onCommentStart <;> kp hI h

theorem k_onCommentStartDash (hI : Kept I S) (h : I m.sink)  {c : Option Nat} : Kr I (onCommentStartDash S m c) := by
  cases c <;> unfold onCommentStartDash <;> kp hI h

theorem k_onComment (hI : Kept I S) (h : I m.sink)  {c : Option Nat} : Kr I (onComment S m c) := by
  cases c <;> unfold onComment <;> kp hI h

theorem k_onCommentLt (hI : Kept I S) (h : I m.sink)  {c : Option Nat} : Kr I (onCommentLt m c) := by
  cases c <;> unfold onCommentLt <;> kp hI h

theorem k_onCommentBang (hI : Kept I S) (h : I m.sink) {next : St} {other : St} {c : Option Nat} : Kr I (onCommentBang next other m c) := by
  cases c <;> unfold onCommentBang <;> kp hI h

theorem k_onCommentBangDashDash (hI : Kept I S) (h : I m.sink)  {c : Option Nat} : Kr I (onCommentBangDashDash m c) := by
  cases c <;> unfold onCommentBangDashDash <;> kp hI h

theorem k_onCommentEndDash (hI : Kept I S) (h : I m.sink)  {c : Option Nat} : Kr I (onCommentEndDash S m c) := by
  cases c <;> unfold onCommentEndDash <;> kp hI h

theorem k_onCommentEnd (hI : Kept I S) (h : I m.sink)  {c : Option Nat} : Kr I (onCommentEnd S m c) := by
  cases c <;> unfold onCommentEnd <;> kp hI h

theorem k_onCommentEndBang (hI : Kept I S) (h : I m.sink)  {c : Option Nat} : Kr I (onCommentEndBang S m c) := by
  cases c <;> unfold onCommentEndBang <;> kp hI h

theorem k_onDoctype (hI : Kept I S) (h : I m.sink)  {c : Option Nat} : Kr I (onDoctype S m c) := by
  cases c <;> unfold onDoctype <;> kp hI h

theorem k_onBeforeDoctypeName (hI : Kept I S) (h : I m.sink)  {c : Option Nat} : Kr I (onBeforeDoctypeName S m c) := by
  cases c <;> unfold onBeforeDoctypeName <;> kp hI h

theorem k_onDoctypeName (hI : Kept I S) (h : I m.sink)  {c : Option Nat} : Kr I (onDoctypeName S m c) := by
  cases c <;> unfold onDoctypeName <;> kp hI h

theorem k_onAfterPublicKw (hI : Kept I S) (h : I m.sink)  {c : Option Nat} : Kr I (onAfterPublicKw S m c) := by
  cases c <;> unfold onAfterPublicKw <;> kp hI h

theorem k_onBeforePublicId (hI : Kept I S) (h : I m.sink)  {c : Option Nat} : Kr I (onBeforePublicId S m c) := by
  cases c <;> unfold onBeforePublicId <;> kp hI h

theorem k_onPublicId (hI : Kept I S) (h : I m.sink) {q : Nat} {c : Option Nat} : Kr I (onPublicId S q m c) := by
  cases c <;> unfold onPublicId <;> kp hI h

theorem k_onAfterPublicId (hI : Kept I S) (h : I m.sink)  {c : Option Nat} : Kr I (onAfterPublicId S m c) := by
  cases c <;> unfold onAfterPublicId <;> kp hI h

theorem k_onBetweenIds (hI : Kept I S) (h : I m.sink)  {c : Option Nat} : Kr I (onBetweenIds S m c) := by
  cases c <;> unfold onBetweenIds <;> kp hI h

theorem k_onAfterSystemKw (hI : Kept I S) (h : I m.sink)  {c : Option Nat} : Kr I (onAfterSystemKw S m c) := by
  cases c <;> unfold onAfterSystemKw <;> kp hI h

theorem k_onBeforeSystemId (hI : Kept I S) (h : I m.sink)  {c : Option Nat} : Kr I (onBeforeSystemId S m c) := by
  cases c <;> unfold onBeforeSystemId <;> kp hI h

theorem k_onSystemId (hI : Kept I S) (h : I m.sink) {q : Nat} {c : Option Nat} : Kr I (onSystemId S q m c) := by
  cases c <;> unfold onSystemId <;> kp hI h

theorem k_onAfterSystemId (hI : Kept I S) (h : I m.sink)  {c : Option Nat} : Kr I (onAfterSystemId S m c) := by
  cases c <;> unfold onAfterSystemId <;> kp hI h

theorem k_onBogusDoctype (hI : Kept I S) (h : I m.sink)  {c : Option Nat} : Kr I (onBogusDoctype S m c) := by
  cases c <;> unfold onBogusDoctype <;> kp hI h

theorem k_onCdata (hI : Kept I S) (h : I m.sink)  {c : Option Nat} : Kr I (onCdata S m c) := by
  cases c <;> unfold onCdata <;> kp hI h

theorem k_onCdataBracket (hI : Kept I S) (h : I m.sink)  {c : Option Nat} : Kr I (onCdataBracket S m c) := by
  cases c <;> unfold onCdataBracket <;> kp hI h

theorem k_onCdataEnd (hI : Kept I S) (h : I m.sink)  {c : Option Nat} : Kr I (onCdataEnd S m c) := by
  cases c <;> unfold onCdataEnd <;> kp hI h

theorem k_onCharRef (hI : Kept I S) (h : I m.sink)  {c : Option Nat} : Kr I (onCharRef S m c) := by
  cases c <;> unfold onCharRef <;> kp hI h

theorem k_onAmbiguousAmp (hI : Kept I S) (h : I m.sink)  {c : Option Nat} : Kr I (onAmbiguousAmp S m c) := by
  cases c <;> unfold onAmbiguousAmp <;> kp hI h

theorem k_onNumericRef (hI : Kept I S) (h : I m.sink)  {c : Option Nat} : Kr I (onNumericRef m c) := by
  cases c <;> unfold onNumericRef <;> kp hI h

theorem k_onHexStart (hI : Kept I S) (h : I m.sink)  {c : Option Nat} : Kr I (onHexStart S m c) := by
  cases c <;> unfold onHexStart <;> kp hI h

theorem k_onDecStart (hI : Kept I S) (h : I m.sink)  {c : Option Nat} : Kr I (onDecStart S m c) := by
  cases c <;> unfold onDecStart <;> kp hI h

theorem k_onHexRef (hI : Kept I S) (h : I m.sink)  {c : Option Nat} : Kr I (onHexRef m c) := by
  cases c <;> unfold onHexRef <;> kp hI h

theorem k_onDecRef (hI : Kept I S) (h : I m.sink)  {c : Option Nat} : Kr I (onDecRef m c) := by
  cases c <;> unfold onDecRef <;> kp hI h

theorem k_act (hI : Kept I S) (h : I m.sink) {st : St} {c : Option Nat} : Kr I (act S st m c) := by
  unfold act
  split
  all_goals try exact k_onData hI h
  all_goals try exact k_onRcdata hI h
  all_goals try exact k_onRawtext hI h
  all_goals try exact k_onPlaintext hI h
  all_goals try exact k_onTagOpen hI h
  all_goals try exact k_onEndTagOpen hI h
  all_goals try exact k_onTagName hI h
  all_goals try exact k_onRawLt hI h
  all_goals try exact k_onRawEndOpen hI h
  all_goals try exact k_onRawEndName hI h
  all_goals try exact k_onScriptLt hI h
  all_goals try exact k_onEscStart hI h
  all_goals try exact k_onScriptEsc hI h
  all_goals try exact k_onScriptEscDash hI h
  all_goals try exact k_onScriptEscDashDash hI h
  all_goals try exact k_onScriptEscLt hI h
  all_goals try exact k_onScriptDblStart hI h
  all_goals try exact k_onScriptDbl hI h
  all_goals try exact k_onScriptDblDash hI h
  all_goals try exact k_onScriptDblDashDash hI h
  all_goals try exact k_onScriptDblLt hI h
  all_goals try exact k_onScriptDblEnd hI h
  all_goals try exact k_onBeforeAttrName hI h
  all_goals try exact k_onAttrName hI h
  all_goals try exact k_onAfterAttrName hI h
  all_goals try exact k_onBeforeAttrValue hI h
  all_goals try exact k_onAttrValueQ hI h
  all_goals try exact k_onAttrValueUq hI h
  all_goals try exact k_onAfterAttrValue hI h
  all_goals try exact k_onSelfClosing hI h
  all_goals try exact k_onBogusComment hI h
  all_goals try exact k_onCommentStart hI h
  all_goals try exact k_onCommentStartDash hI h
  all_goals try exact k_onComment hI h
  all_goals try exact k_onCommentLt hI h
  all_goals try exact k_onCommentBang hI h
  all_goals try exact k_onCommentBangDashDash hI h
  all_goals try exact k_onCommentEndDash hI h
  all_goals try exact k_onCommentEnd hI h
  all_goals try exact k_onCommentEndBang hI h
  all_goals try exact k_onDoctype hI h
  all_goals try exact k_onBeforeDoctypeName hI h
  all_goals try exact k_onDoctypeName hI h
  all_goals try exact k_onAfterPublicKw hI h
  all_goals try exact k_onBeforePublicId hI h
  all_goals try exact k_onPublicId hI h
  all_goals try exact k_onAfterPublicId hI h
  all_goals try exact k_onBetweenIds hI h
  all_goals try exact k_onAfterSystemKw hI h
  all_goals try exact k_onBeforeSystemId hI h
  all_goals try exact k_onSystemId hI h
  all_goals try exact k_onAfterSystemId hI h
  all_goals try exact k_onBogusDoctype hI h
  all_goals try exact k_onCdata hI h
  all_goals try exact k_onCdataBracket hI h
  all_goals try exact k_onCdataEnd hI h
  all_goals try exact k_onCharRef hI h
  all_goals try exact k_onAmbiguousAmp hI h
  all_goals try exact k_onNumericRef hI h
  all_goals try exact k_onHexStart hI h
  all_goals try exact k_onDecStart hI h
  all_goals try exact k_onHexRef hI h
  all_goals try exact k_onDecRef hI h
  all_goals exact kr_none

theorem ko_skip {n : Nat} (h : I m.sink) : Ko I (skip n m) := by
  unfold skip; split; exacts [ko_none, ko_some h]

theorem ko_markupDecl (h : I m.sink) : Ko I (markupDecl S m) := by
  unfold markupDecl
  split
  · exact ko_map (ko_skip h) fun _ h => h
  · exact ko_map (ko_skip h) fun _ h => h
  · refine ko_map (ko_skip h) fun _ h => ?_
    split <;> exact h
  · exact ko_some h

theorem k_afterDoctypeName (hI : Kept I S) (h : I m.sink) {c : Option Nat} (r : M σ × After) (hr : afterDoctypeName S m c = some r) :
    I r.1.sink := by
  unfold afterDoctypeName at hr
  split at hr
  · cases hr; exact hI _ _ (hI _ _ h)
  · split_ifs at hr
    · cases hr; exact h
    · cases hr; exact hI _ _ h
    · split at hr
      · rw [Option.map_eq_some_iff] at hr
        obtain ⟨m', h1, rfl⟩ := hr
        exact ko_skip (I := I) h m' h1
      · rw [Option.map_eq_some_iff] at hr
        obtain ⟨m', h1, rfl⟩ := hr
        exact ko_skip (I := I) h m' h1
      · cases hr; exact h

theorem ko_namedRef (hI : Kept I S) {find : Find} (h : I m.sink) : Ko I (namedRef S find m) := by
  unfold namedRef
  split
  · exact ko_none
  · split
    · exact ko_none
    · next hq =>
      have hx := ko_flushRef hI h _ hq
      exact ko_some hx
  · dsimp only
    split
    · exact ko_none
    · next m1 hq =>
      have h1 : I m1.sink := by
        refine ko_skip (I := I) ?_ m1 hq
        exact h
      split
      · exact ko_none
      · next m2 hq2 =>
        have h2 : I m2.sink := by
          refine ko_flushRef hI ?_ m2 hq2
          split
          · split_ifs <;> exact h1
          · exact h1
        split
        · exact ko_none
        · exact ko_some h2

theorem ko_numericEnd (hI : Kept I S) (h : I m.sink) : Ko I (onNumericEnd S m) := by
  unfold onNumericEnd
  dsimp only
  split
  · exact ko_none
  · next hq =>
    split
    · exact ko_none
    · have hx := ko_flushRef (m := { m with code := codePoint m.code, tmp := [codePoint m.code] }) hI h _ hq
      exact ko_some hx

theorem i_next {m' : M σ} {c : Option Nat} (h : I m.sink) (hn : next m = some (m', c)) : I m'.sink := by
  unfold next at hn
  split at hn
  · cases hn
  · cases hn; exact h

/-- The machine. -/
theorem ko_run (hI : Kept I S) (find : Find) (f : Nat) : ∀ m : M σ, I m.sink →
    Ko I (run S find f m) ∧ Ko I (flush S find f m) ∧ Ko I (flushLoop S find f m) := by
  induction f with
  | zero => intro m h; unfold run flush flushLoop; exact ⟨ko_none, ko_none, ko_none⟩
  | succ f ih =>
    intro m h
    refine ⟨?_, ?_, ?_⟩
    · unfold run
      split
      · split_ifs
        · exact ko_some h
        · split
          · exact ko_none
          · next hq => exact (ih _ (ko_markupDecl h _ hq)).2.1
      · split_ifs
        · exact ko_some h
        · split
          · exact ko_none
          · next hq =>
            have h1 := i_next h hq
            split
            · exact ko_none
            · next hq2 => exact ko_some (k_afterDoctypeName hI h1 _ hq2)
            · next hq2 => exact (ih _ (k_afterDoctypeName hI h1 _ hq2)).2.1
            · next hq2 =>
              have h2 := k_afterDoctypeName hI h1 _ hq2
              split
              · exact ko_none
              · next hq3 => exact (ih _ ((ih _ (by exact h2)).1 _ hq3)).2.1
      · split_ifs
        · exact ko_some h
        · split
          · exact ko_none
          · next hq => exact (ih _ (ko_namedRef hI h _ hq)).2.1
      · exact ko_numericEnd hI h
      · split
        · exact ko_none
        · next hq =>
          have h1 := i_next h hq
          split
          · exact ko_none
          · next hq2 => exact ko_some (k_act hI h1 _ _ hq2)
          · next hq2 => 
            have hx := k_act hI h1 _ _ hq2
            refine (ih _ ?_).1
            exact hx
    · unfold flush
      split_ifs
      · exact ko_none
      · exact (ih m h).2.2
    · unfold flushLoop
      split_ifs
      · exact (ih m h).1
      · exact ko_some h
      · split
        · exact ko_none
        · next hq =>
          have h1 := (ih m h).1 _ hq
          split_ifs
          · exact ko_some h1
          · exact (ih _ h1).2.2

theorem ko_push (hI : Kept I S) (find : Find) (f c : Nat) (h : I m.sink) : Ko I (push S find f c m) := by
  unfold push
  refine (ko_run hI find f _ ?_).1
  exact h

theorem ko_pushAll (hI : Kept I S) (find : Find) (f : Nat) (l : List Nat) (h : I m.sink) : Ko I (pushAll S find f l m) := by
  induction l generalizing m with
  | nil => exact ko_some h
  | cons c l ih =>
    unfold Verif.Model.HtmlTok.pushAll
    split
    · exact ko_none
    · next hq => exact ih (ko_push hI find f c h _ hq)

theorem k_feed (hI : Kept I S) (find : Find) (f : Nat) (l : List Nat) (cr : Bool) (h : I m.sink) (r : Bool × M σ)
    (hr : feed S find f cr l m = some r) : I r.2.sink := by
  induction l generalizing m cr with
  | nil => cases hr; exact h
  | cons c l ih =>
    unfold feed at hr
    split at hr
    · cases hr
    · next hq => exact ih _ (ko_pushAll hI find f _ h _ hq) hr

theorem ko_pushEof (hI : Kept I S) (find : Find) (f : Nat) (cr : Bool) (h : I m.sink) : Ko I (pushEof S find f cr m) := by
  unfold Verif.Model.HtmlTok.pushEof
  dsimp only
  split_ifs
  · split
    · exact ko_none
    · next hq => exact (ko_run hI find f _ (ko_push hI find f 0xA (by exact h) _ hq)).1
  · refine (ko_run hI find f _ ?_).1
    exact h

/-- What every token keeps holds in the end. -/
theorem ko_tokenize (hI : Kept I S) (find : Find) (f : Nat) (s : σ) (l : List Nat) (h : I s) : Ko I (tokenize S find f s l) := by
  unfold tokenize
  split
  · exact ko_none
  · next hq => exact ko_pushEof hI find f _ (k_feed hI find f l false h _ hq)

end Verif.Proof.HtmlTokKeep
