import Verif.Proof.HtmlTokInv
import Verif.Spec.HtmlTok
/-
The tokenizer of the model and that of the standard: the relation between their states, and the relation kept by the helpers.
-/
namespace Verif.Proof.HtmlTok
open Verif.Model.HtmlTok Verif.Model.HtmlInput Verif.Model.Infra
variable {σ : Type}

def tagBy (k : Nat) (a b : Tag) : Tag := if k = 2 then a else if k = 3 then b else ⟨[], false, []⟩

/-- The current tag. -/
def cur (m : M σ) : Tag := tagBy m.kind m.startTag m.endTag

theorem tagBy_2 (a b : Tag) : tagBy 2 a b = a := rfl
theorem tagBy_3 (a b : Tag) : tagBy 3 a b = b := rfl

def pairs (l : List Attr) : List (List Nat × List Nat) := l.map fun a => (a.name, a.val)

def tagOf (m : M σ) : Spec.HtmlTok.Tag := ⟨m.kind == 3, (cur m).name, (cur m).self, pairs (cur m).attrs⟩

/-- Attributes are marked as omitted exactly when an earlier one has the same name. -/
def Marks : List Attr → Prop
  | [] => True
  | a :: r => a.omitted = r.any (fun b => b.name == a.name) ∧ Marks r

/-- The attribute name state has not compared yet. -/
def MarksIn (st : St) (l : List Attr) : Prop :=
  if st = .attrName then match l with | [] => True | a :: r => a.omitted = false ∧ Marks r
  else Marks l

structure Core (m : M σ) (x : Spec.HtmlTok.C σ) : Prop where
  st : x.st = stOf m.st
  ret : x.ret = (m.ret.map stOf).getD .data
  tmp : x.tmp = m.tmp
  dtName : x.dtName = m.dt.name
  pub : x.pub.getD [] = m.dt.pub
  sys : x.sys.getD [] = m.dt.sys
  quirks : x.quirks = m.dt.quirks
  tag : x.tag = tagOf m
  com : x.com = m.com
  last : x.last = m.last
  code : m.code = x.code % 4294967296
  sink : x.sink = m.sink
  pubSome : m.st = .publicIdDq ∨ m.st = .publicIdSq → x.pub.isSome = true
  sysSome : m.st = .systemIdDq ∨ m.st = .systemIdSq → x.sys.isSome = true

/-- What a step of the standard does, compared with the result of a state function. -/
structure Out (m : M σ) (b : Bool) (c : Option Nat) (x y : Spec.HtmlTok.C σ) : Prop where
  core : Core m y
  rest : y.rest = if b then x.rest else x.rest.tail
  ended : y.ended = (c.isNone && !b)
  marks : c = none ∨ MarksIn m.st (cur m).attrs

def OutR (S : Sink σ) (x : Spec.HtmlTok.C σ) (c : Option Nat) (r : R σ) : Prop :=
  ∀ m b, r = some (m, b) → Out m b c x (Spec.HtmlTok.plain (envOf S) x)

/-- The situation before a step. -/
structure Sit (m : M σ) (c : Option Nat) (x : Spec.HtmlTok.C σ) : Prop where
  core : Core m x
  ended : x.ended = false
  head : x.rest.head? = c
  marks : c = none ∨ MarksIn m.st (cur m).attrs

theorem on_white (c : Nat) : Spec.HtmlTok.On.ok .white (some c) = ws c := by
  simp only [Spec.HtmlTok.On.ok, ws, List.contains_eq_any_beq, List.any_cons, List.any_nil, Bool.or_false, Bool.or_assoc]
theorem on_upper (c : Nat) : Spec.HtmlTok.On.ok .upper (some c) = isAsciiUpperAlpha c := by
  simp [Spec.HtmlTok.On.ok, Spec.HtmlTok.isUpper, isAsciiUpperAlpha]
theorem on_lower (c : Nat) : Spec.HtmlTok.On.ok .lower (some c) = isAsciiLowerAlpha c := by
  simp [Spec.HtmlTok.On.ok, Spec.HtmlTok.isLower, isAsciiLowerAlpha]
theorem on_alpha (c : Nat) : Spec.HtmlTok.On.ok .alpha (some c) = isAsciiAlpha c := by
  simp [Spec.HtmlTok.On.ok, Spec.HtmlTok.isAlpha, Spec.HtmlTok.isLower, Spec.HtmlTok.isUpper, isAsciiAlpha, isAsciiLowerAlpha, isAsciiUpperAlpha]
theorem on_alnum (c : Nat) : Spec.HtmlTok.On.ok .alnum (some c) = isAsciiAlphanumeric c := by
  simp [Spec.HtmlTok.On.ok, Spec.HtmlTok.isAlnum, Spec.HtmlTok.isAlpha, Spec.HtmlTok.isDigit, Spec.HtmlTok.isLower, Spec.HtmlTok.isUpper,
    isAsciiAlphanumeric, isAsciiDigit, isAsciiAlpha, isAsciiLowerAlpha, isAsciiUpperAlpha]
theorem on_digit (c : Nat) : Spec.HtmlTok.On.ok .digit (some c) = isAsciiDigit c := by
  simp [Spec.HtmlTok.On.ok, Spec.HtmlTok.isDigit, isAsciiDigit]

theorem on_hex (c : Nat) : Spec.HtmlTok.On.ok .hex (some c) = isAsciiHexDigit c := by
  simp only [Spec.HtmlTok.On.ok, Spec.HtmlTok.isHex, Spec.HtmlTok.isDigit, isAsciiHexDigit, isAsciiUpperHexDigit, isAsciiLowerHexDigit, isAsciiDigit]
  rw [Bool.eq_iff_iff]
  simp
  tauto
theorem on_is (a c : Nat) : Spec.HtmlTok.On.ok (.is [a]) (some c) = decide (c = a) := by
  simp [Spec.HtmlTok.On.ok]
theorem on_is2 (a b c : Nat) : Spec.HtmlTok.On.ok (.is [a, b]) (some c) = (decide (c = a) || decide (c = b)) := by
  simp [Spec.HtmlTok.On.ok]
theorem on_is6 (c : Nat) : Spec.HtmlTok.On.ok (.is [0x9, 0xA, 0xC, 0x20, 0x2F, 0x3E]) (some c) = (ws c || c == 0x2F || c == 0x3E) := by
  simp only [Spec.HtmlTok.On.ok, ws, List.contains_eq_any_beq, List.any_cons, List.any_nil, Bool.or_false, Bool.or_assoc]
theorem on_eof (c : Nat) : Spec.HtmlTok.On.ok .eof (some c) = false := rfl
theorem on_eof' : Spec.HtmlTok.On.ok .eof none = true := rfl
theorem on_any (c : Option Nat) : Spec.HtmlTok.On.ok .any c = true := rfl

theorem is_none (l : List Nat) : Spec.HtmlTok.On.ok (.is l) none = false := rfl
theorem white_none : Spec.HtmlTok.On.ok .white none = false := rfl
theorem upper_none : Spec.HtmlTok.On.ok .upper none = false := rfl
theorem lower_none : Spec.HtmlTok.On.ok .lower none = false := rfl
theorem alpha_none : Spec.HtmlTok.On.ok .alpha none = false := rfl
theorem alnum_none : Spec.HtmlTok.On.ok .alnum none = false := rfl
theorem digit_none : Spec.HtmlTok.On.ok .digit none = false := rfl
theorem hex_none : Spec.HtmlTok.On.ok .hex none = false := rfl

theorem if_always (x : Spec.HtmlTok.C σ) : Spec.HtmlTok.If.ok x .always = true := rfl
theorem if_script (x : Spec.HtmlTok.C σ) : Spec.HtmlTok.If.ok x .script = (x.tmp == scriptStr) := rfl

theorem low_upper {c : Nat} (h : isAsciiUpperAlpha c = true) : Spec.HtmlTok.lowered c = c + 0x20 := by
  unfold Spec.HtmlTok.lowered
  rw [if_pos]
  simpa [Spec.HtmlTok.isUpper, isAsciiUpperAlpha] using h

@[simp] theorem stOf_data : stOf .data = .data := rfl
@[simp] theorem stOf_rcdata : stOf .rcdata = .rcdata := rfl
@[simp] theorem stOf_rawtext : stOf .rawtext = .rawtext := rfl
@[simp] theorem stOf_scriptData : stOf .scriptData = .scriptData := rfl
@[simp] theorem stOf_plaintext : stOf .plaintext = .plaintext := rfl
@[simp] theorem stOf_tagOpen : stOf .tagOpen = .tagOpen := rfl
@[simp] theorem stOf_endTagOpen : stOf .endTagOpen = .endTagOpen := rfl
@[simp] theorem stOf_tagName : stOf .tagName = .tagName := rfl
@[simp] theorem stOf_rcdataLt : stOf .rcdataLt = .rcdataLt := rfl
@[simp] theorem stOf_rcdataEndOpen : stOf .rcdataEndOpen = .rcdataEndOpen := rfl
@[simp] theorem stOf_rcdataEndName : stOf .rcdataEndName = .rcdataEndName := rfl
@[simp] theorem stOf_rawtextLt : stOf .rawtextLt = .rawtextLt := rfl
@[simp] theorem stOf_rawtextEndOpen : stOf .rawtextEndOpen = .rawtextEndOpen := rfl
@[simp] theorem stOf_rawtextEndName : stOf .rawtextEndName = .rawtextEndName := rfl
@[simp] theorem stOf_scriptLt : stOf .scriptLt = .scriptLt := rfl
@[simp] theorem stOf_scriptEndOpen : stOf .scriptEndOpen = .scriptEndOpen := rfl
@[simp] theorem stOf_scriptEndName : stOf .scriptEndName = .scriptEndName := rfl
@[simp] theorem stOf_scriptEscStart : stOf .scriptEscStart = .scriptEscStart := rfl
@[simp] theorem stOf_scriptEscStartDash : stOf .scriptEscStartDash = .scriptEscStartDash := rfl
@[simp] theorem stOf_scriptEsc : stOf .scriptEsc = .scriptEsc := rfl
@[simp] theorem stOf_scriptEscDash : stOf .scriptEscDash = .scriptEscDash := rfl
@[simp] theorem stOf_scriptEscDashDash : stOf .scriptEscDashDash = .scriptEscDashDash := rfl
@[simp] theorem stOf_scriptEscLt : stOf .scriptEscLt = .scriptEscLt := rfl
@[simp] theorem stOf_scriptEscEndOpen : stOf .scriptEscEndOpen = .scriptEscEndOpen := rfl
@[simp] theorem stOf_scriptEscEndName : stOf .scriptEscEndName = .scriptEscEndName := rfl
@[simp] theorem stOf_scriptDblStart : stOf .scriptDblStart = .scriptDblStart := rfl
@[simp] theorem stOf_scriptDbl : stOf .scriptDbl = .scriptDbl := rfl
@[simp] theorem stOf_scriptDblDash : stOf .scriptDblDash = .scriptDblDash := rfl
@[simp] theorem stOf_scriptDblDashDash : stOf .scriptDblDashDash = .scriptDblDashDash := rfl
@[simp] theorem stOf_scriptDblLt : stOf .scriptDblLt = .scriptDblLt := rfl
@[simp] theorem stOf_scriptDblEnd : stOf .scriptDblEnd = .scriptDblEnd := rfl
@[simp] theorem stOf_beforeAttrName : stOf .beforeAttrName = .beforeAttrName := rfl
@[simp] theorem stOf_attrName : stOf .attrName = .attrName := rfl
@[simp] theorem stOf_afterAttrName : stOf .afterAttrName = .afterAttrName := rfl
@[simp] theorem stOf_beforeAttrValue : stOf .beforeAttrValue = .beforeAttrValue := rfl
@[simp] theorem stOf_attrValueDq : stOf .attrValueDq = .attrValueDq := rfl
@[simp] theorem stOf_attrValueSq : stOf .attrValueSq = .attrValueSq := rfl
@[simp] theorem stOf_attrValueUq : stOf .attrValueUq = .attrValueUq := rfl
@[simp] theorem stOf_afterAttrValue : stOf .afterAttrValue = .afterAttrValue := rfl
@[simp] theorem stOf_selfClosing : stOf .selfClosing = .selfClosing := rfl
@[simp] theorem stOf_bogusComment : stOf .bogusComment = .bogusComment := rfl
@[simp] theorem stOf_markupDecl : stOf .markupDecl = .markupDecl := rfl
@[simp] theorem stOf_commentStart : stOf .commentStart = .commentStart := rfl
@[simp] theorem stOf_commentStartDash : stOf .commentStartDash = .commentStartDash := rfl
@[simp] theorem stOf_comment : stOf .comment = .comment := rfl
@[simp] theorem stOf_commentLt : stOf .commentLt = .commentLt := rfl
@[simp] theorem stOf_commentLtBang : stOf .commentLtBang = .commentLtBang := rfl
@[simp] theorem stOf_commentLtBangDash : stOf .commentLtBangDash = .commentLtBangDash := rfl
@[simp] theorem stOf_commentLtBangDashDash : stOf .commentLtBangDashDash = .commentLtBangDashDash := rfl
@[simp] theorem stOf_commentEndDash : stOf .commentEndDash = .commentEndDash := rfl
@[simp] theorem stOf_commentEnd : stOf .commentEnd = .commentEnd := rfl
@[simp] theorem stOf_commentEndBang : stOf .commentEndBang = .commentEndBang := rfl
@[simp] theorem stOf_doctype : stOf .doctype = .doctype := rfl
@[simp] theorem stOf_beforeDoctypeName : stOf .beforeDoctypeName = .beforeDoctypeName := rfl
@[simp] theorem stOf_doctypeName : stOf .doctypeName = .doctypeName := rfl
@[simp] theorem stOf_afterDoctypeName : stOf .afterDoctypeName = .afterDoctypeName := rfl
@[simp] theorem stOf_afterPublicKw : stOf .afterPublicKw = .afterPublicKw := rfl
@[simp] theorem stOf_beforePublicId : stOf .beforePublicId = .beforePublicId := rfl
@[simp] theorem stOf_publicIdDq : stOf .publicIdDq = .publicIdDq := rfl
@[simp] theorem stOf_publicIdSq : stOf .publicIdSq = .publicIdSq := rfl
@[simp] theorem stOf_afterPublicId : stOf .afterPublicId = .afterPublicId := rfl
@[simp] theorem stOf_betweenIds : stOf .betweenIds = .betweenIds := rfl
@[simp] theorem stOf_afterSystemKw : stOf .afterSystemKw = .afterSystemKw := rfl
@[simp] theorem stOf_beforeSystemId : stOf .beforeSystemId = .beforeSystemId := rfl
@[simp] theorem stOf_systemIdDq : stOf .systemIdDq = .systemIdDq := rfl
@[simp] theorem stOf_systemIdSq : stOf .systemIdSq = .systemIdSq := rfl
@[simp] theorem stOf_afterSystemId : stOf .afterSystemId = .afterSystemId := rfl
@[simp] theorem stOf_bogusDoctype : stOf .bogusDoctype = .bogusDoctype := rfl
@[simp] theorem stOf_cdata : stOf .cdata = .cdata := rfl
@[simp] theorem stOf_cdataBracket : stOf .cdataBracket = .cdataBracket := rfl
@[simp] theorem stOf_cdataEnd : stOf .cdataEnd = .cdataEnd := rfl
@[simp] theorem stOf_charRef : stOf .charRef = .charRef := rfl
@[simp] theorem stOf_namedRef : stOf .namedRef = .namedRef := rfl
@[simp] theorem stOf_ambiguousAmp : stOf .ambiguousAmp = .ambiguousAmp := rfl
@[simp] theorem stOf_numericRef : stOf .numericRef = .numericRef := rfl
@[simp] theorem stOf_hexStart : stOf .hexStart = .hexStart := rfl
@[simp] theorem stOf_decStart : stOf .decStart = .decStart := rfl
@[simp] theorem stOf_hexRef : stOf .hexRef = .hexRef := rfl
@[simp] theorem stOf_decRef : stOf .decRef = .decRef := rfl
@[simp] theorem stOf_numericEnd : stOf .numericEnd = .numericEnd := rfl

theorem doneO_some {o : Option (M σ)} {m : M σ} {b : Bool} (h : doneO o = some (m, b)) : o = some m ∧ b = false := by
  cases o with
  | none => simp [doneO] at h
  | some a => simpa [doneO, done, eq_comm] using h

theorem reO_some {st : St} {o : Option (M σ)} {m : M σ} {b : Bool} (h : reO st o = some (m, b)) :
    ∃ m1, o = some m1 ∧ m = go st m1 ∧ b = true := by
  cases o with
  | none => simp [reO] at h
  | some a =>
    simp only [reO, re, Option.some.injEq, Prod.mk.injEq] at h
    exact ⟨a, rfl, h.1.symm, h.2.symm⟩

theorem reRet_some {m m2 : M σ} {b : Bool} (h : reRet m = some (m2, b)) : ∃ st, m.ret = some st ∧ m2 = go st m ∧ b = true := by
  unfold reRet at h
  cases e : m.ret with
  | none => simp [e] at h
  | some st =>
    simp only [e, re, Option.some.injEq, Prod.mk.injEq] at h
    exact ⟨st, rfl, h.1.symm, h.2.symm⟩

theorem updTag_some {f : Tag → Tag} {m m' : M σ} (h : updTag f m = some m') :
    ∃ a b, m' = { m with startTag := a, endTag := b } ∧ tagBy m.kind a b = f (cur m) := by
  unfold updTag at h
  split_ifs at h with h1 h2
  · simp only [Option.some.injEq] at h
    exact ⟨_, m.endTag, h.symm, by simp [cur, h1, tagBy]⟩
  · simp only [Option.some.injEq] at h
    exact ⟨m.startTag, _, h.symm, by simp [cur, h2, tagBy]⟩

theorem curTag_some {m : M σ} {t : Tag} (h : curTag m = some t) : t = cur m := by
  unfold curTag at h
  unfold cur tagBy
  split_ifs at h ⊢ <;> simp_all

theorem updAttr_some {f : Attr → Attr} {m m' : M σ} (h : updAttr f m = some m') :
    ∃ a b e r, m' = { m with startTag := a, endTag := b } ∧ (cur m).attrs = e :: r ∧ tagBy m.kind a b = { cur m with attrs := f e :: r } := by
  unfold updAttr at h
  cases hc : curTag m with
  | none => simp [hc] at h
  | some t =>
    have := curTag_some hc
    subst this
    rw [hc] at h
    dsimp only at h
    cases ha : (cur m).attrs with
    | nil => simp [ha] at h
    | cons e r =>
      rw [ha] at h
      obtain ⟨a, b, h1, h2⟩ := updTag_some h
      exact ⟨a, b, e, r, h1, rfl, h2⟩

theorem unify_some {m m' : M σ} (h : unify m = some m') :
    ∃ a b e r, m' = { m with startTag := a, endTag := b } ∧ (cur m).attrs = e :: r ∧
      tagBy m.kind a b = { cur m with attrs := { e with omitted := e.omitted || r.any (fun b => b.name == e.name) } :: r } := by
  unfold unify at h
  cases hc : curTag m with
  | none => simp [hc] at h
  | some t =>
    have := curTag_some hc
    subst this
    rw [hc] at h
    dsimp only at h
    cases ha : (cur m).attrs with
    | nil => simp [ha] at h
    | cons e r =>
      rw [ha] at h
      obtain ⟨a, b, h1, h2⟩ := updTag_some h
      exact ⟨a, b, e, r, h1, rfl, h2⟩

/-- Characters passed on. -/
def outs (S : Sink σ) (l : List Nat) (s : σ) : σ := l.foldl (fun s c => S.emit s (.char c)) s

theorem chrs_eq (S : Sink σ) (l : List Nat) (m : M σ) : chrs S l m = { m with sink := outs S l m.sink } := by
  induction l generalizing m with
  | nil => rfl
  | cons c l ih => exact ih (chr S c m)

theorem emitAll_eq (S : Sink σ) (l : List Nat) (x : Spec.HtmlTok.C σ) :
    l.foldl (fun x c => Spec.HtmlTok.emit (envOf S) (.char c) x) x = { x with sink := outs S l x.sink } := by
  induction l generalizing x with
  | nil => rfl
  | cons c l ih => exact ih _

/-- Adding to the value of the current attribute. -/
def addVal (l : List Nat) (t : Spec.HtmlTok.Tag) : Spec.HtmlTok.Tag :=
  { t with attrs := match t.attrs with | [] => [] | (n, v) :: r => (n, v ++ l) :: r }

theorem addVal_add (k l : List Nat) (t : Spec.HtmlTok.Tag) : addVal l (addVal k t) = addVal (k ++ l) t := by
  obtain ⟨e, n, s, a⟩ := t
  cases a with
  | nil => rfl
  | cons p r => simp [addVal]

theorem addVal_nil (t : Spec.HtmlTok.Tag) : addVal [] t = t := by
  obtain ⟨e, n, s, a⟩ := t
  cases a with
  | nil => rfl
  | cons p r => simp [addVal]

theorem refs_attr (S : Sink σ) (l : List Nat) (x : Spec.HtmlTok.C σ) (h : Spec.HtmlTok.inAttr x = true) :
    l.foldl (fun x c => Spec.HtmlTok.putc (envOf S) c .ref x) x = { x with tag := addVal l x.tag } := by
  induction l generalizing x with
  | nil => simp [addVal_nil]
  | cons c l ih =>
    rw [List.foldl_cons]
    have e : Spec.HtmlTok.putc (envOf S) c .ref x = { x with tag := addVal [c] x.tag } := by
      simp only [Spec.HtmlTok.putc, h, if_true]
      rfl
    rw [e]
    have h' : Spec.HtmlTok.inAttr { x with tag := addVal [c] x.tag } = true := h
    refine (ih _ h').trans ?_
    simp [addVal_add]

theorem refs_out (S : Sink σ) (l : List Nat) (x : Spec.HtmlTok.C σ) (h : Spec.HtmlTok.inAttr x = false) :
    l.foldl (fun x c => Spec.HtmlTok.putc (envOf S) c .ref x) x = { x with sink := outs S l x.sink } := by
  induction l generalizing x with
  | nil => rfl
  | cons c l ih =>
    rw [List.foldl_cons]
    have e : Spec.HtmlTok.putc (envOf S) c .ref x = Spec.HtmlTok.emit (envOf S) (.char c) x := by
      simp [Spec.HtmlTok.putc, h]
    rw [e]
    exact ih _ h

theorem flush_eq (S : Sink σ) (x : Spec.HtmlTok.C σ) : Spec.HtmlTok.flushRef (envOf S) x =
    if Spec.HtmlTok.inAttr x then { x with tag := addVal x.tmp x.tag } else { x with sink := outs S x.tmp x.sink } := by
  unfold Spec.HtmlTok.flushRef
  split
  · rename_i h
    exact refs_attr S _ x h
  · rename_i h
    exact refs_out S _ x (by simpa using h)

theorem inAttr_eq {m : M σ} {x : Spec.HtmlTok.C σ} (h : x.ret = (m.ret.map stOf).getD .data) : Spec.HtmlTok.inAttr x = inAttr m := by
  unfold Spec.HtmlTok.inAttr inAttr
  rw [h]
  cases m.ret with
  | none => rfl
  | some e => cases e <;> rfl

theorem pushAttrVals_some {l : List Nat} {m m' : M σ} (h : pushAttrVals l m = some m') :
    ∃ a b, m' = { m with startTag := a, endTag := b } ∧
      (⟨m.kind == 3, (tagBy m.kind a b).name, (tagBy m.kind a b).self, pairs (tagBy m.kind a b).attrs⟩ : Spec.HtmlTok.Tag) = addVal l (tagOf m) ∧
      (Marks (cur m).attrs → Marks (tagBy m.kind a b).attrs) := by
  induction l generalizing m with
  | nil =>
    simp only [pushAttrVals, Option.some.injEq] at h
    subst h
    exact ⟨m.startTag, m.endTag, rfl, by simp [addVal_nil, tagOf, cur], id⟩
  | cons c l ih =>
    unfold pushAttrVals at h
    cases e1 : pushAttrVal c m with
    | none => simp [e1] at h
    | some m1 =>
      rw [e1] at h
      obtain ⟨a, b, e, r, rfl, h2, h3⟩ := updAttr_some e1
      obtain ⟨a', b', rfl, h5, h6⟩ := ih h
      refine ⟨a', b', rfl, ?_, ?_⟩
      · rw [show c :: l = [c] ++ l from rfl, ← addVal_add]
        refine h5.trans ?_
        congr 1
        simp [tagOf, cur, h3, addVal, pairs]
        have : (tagBy m.kind m.startTag m.endTag).attrs = e :: r := h2
        simp [this]
      · intro hm
        apply h6
        show Marks (tagBy m.kind a b).attrs
        rw [h3]
        rw [h2] at hm
        exact hm

theorem flushRef_some {S : Sink σ} {m m' : M σ} (h : flushRef S m = some m') :
    (inAttr m = true ∧ ∃ a b, m' = { m with startTag := a, endTag := b } ∧
      (⟨m.kind == 3, (tagBy m.kind a b).name, (tagBy m.kind a b).self, pairs (tagBy m.kind a b).attrs⟩ : Spec.HtmlTok.Tag) = addVal m.tmp (tagOf m) ∧
      (Marks (cur m).attrs → Marks (tagBy m.kind a b).attrs)) ∨
    (inAttr m = false ∧ m' = { m with sink := outs S m.tmp m.sink }) := by
  unfold flushRef at h
  split at h
  · rename_i hi
    exact Or.inl ⟨hi, pushAttrVals_some h⟩
  · rename_i hi
    simp only [Option.some.injEq, chrs_eq] at h
    exact Or.inr ⟨by simpa using hi, h.symm⟩

theorem flushBack_out (S : Sink σ) (m m2 : M σ) (b : Bool) (c : Option Nat) (x : Spec.HtmlTok.C σ) (t : List Nat) (h : Core m x)
    (he : x.ended = false) (hp : ∀ e, m.ret = some e → isRet e = true) (hm : c = none ∨ Marks (cur m).attrs)
    (hr : flushBack S { m with tmp := t } = some (m2, b)) :
    Out m2 b c x (Spec.HtmlTok.flushRef (envOf S) { x with st := x.ret, tmp := t }) := by
  obtain ⟨h1, h2, h3, h4, h5, h6, h7, h8, h9, h10, h11, h12, h13, h14⟩ := h
  unfold flushBack at hr
  cases hf : flushRef S { m with tmp := t } with
  | none => simp [hf] at hr
  | some m1 =>
    rw [hf] at hr
    obtain ⟨st, e1, rfl, rfl⟩ := reRet_some hr
    have hin : Spec.HtmlTok.inAttr { x with st := x.ret, tmp := t } = inAttr m := inAttr_eq h2
    rw [flush_eq, hin]
    rcases flushRef_some hf with ⟨hi, a, d, rfl, h3, h4⟩ | ⟨hi, rfl⟩
    · have hi' : inAttr m = true := hi
      have e2 : m.ret = some st := e1
      have hst := hp _ e2
      rw [if_pos hi']
      constructor
      · constructor <;> simp [go, *]
        · simp [tagOf, cur]
          have := h3.symm
          simpa [tagOf, cur] using this
        · rintro (rfl | rfl) <;> simp [isRet] at hst
        · rintro (rfl | rfl) <;> simp [isRet] at hst
      · rfl
      · simp [he]
      · rcases hm with hm | hm
        · exact Or.inl hm
        · right
          have : st ≠ .attrName := by rintro rfl; simp [isRet] at hst
          simpa [MarksIn, go, this, cur] using h4 hm
    · have hi' : inAttr m = false := hi
      have e2 : m.ret = some st := e1
      have hst := hp _ e2
      rw [hi']
      constructor
      · constructor <;> simp [go, *]
        · rfl
        · rintro (rfl | rfl) <;> simp [isRet] at hst
        · rintro (rfl | rfl) <;> simp [isRet] at hst
      · rfl
      · simp [he]
      · rcases hm with hm | hm
        · exact Or.inl hm
        · right
          have : st ≠ .attrName := by rintro rfl; simp [isRet] at hst
          simpa [MarksIn, go, this, cur] using hm

theorem reRet_out (S : Sink σ) (m m2 : M σ) (b : Bool) (c : Option Nat) (x : Spec.HtmlTok.C σ) (h : Core m x)
    (he : x.ended = false) (hp : ∀ e, m.ret = some e → isRet e = true) (hm : c = none ∨ Marks (cur m).attrs)
    (hr : reRet m = some (m2, b)) :
    Out m2 b c x { x with st := x.ret } := by
  obtain ⟨h1, h2, h3, h4, h5, h6, h7, h8, h9, h10, h11, h12, h13, h14⟩ := h
  obtain ⟨st, e2, rfl, rfl⟩ := reRet_some hr
  have hst := hp _ e2
  constructor
  · constructor <;> simp [go, *]
    · rfl
    · rintro (rfl | rfl) <;> simp [isRet] at hst
    · rintro (rfl | rfl) <;> simp [isRet] at hst
  · rfl
  · simp [he]
  · rcases hm with hm | hm
    · exact Or.inl hm
    · right
      have : st ≠ .attrName := by rintro rfl; simp [isRet] at hst
      simpa [MarksIn, go, this, cur] using hm

/-! Attributes of an emitted tag. -/

theorem firsts_append (l : List (List Nat × List Nat)) (p : List Nat × List Nat) :
    Spec.HtmlTok.firsts (l ++ [p]) =
      if (Spec.HtmlTok.firsts l).any (fun b => b.1 == p.1) then Spec.HtmlTok.firsts l else Spec.HtmlTok.firsts l ++ [p] := by
  unfold Spec.HtmlTok.firsts
  rw [List.foldl_append]
  rfl

theorem firsts_names (l : List Attr) (n : List Nat) :
    (Spec.HtmlTok.firsts (pairs l).reverse).any (fun b => b.1 == n) = l.any (fun b => b.name == n) := by
  induction l with
  | nil => rfl
  | cons a r ih =>
    have e : (pairs (a :: r)).reverse = (pairs r).reverse ++ [(a.name, a.val)] := by simp [pairs]
    rw [e, firsts_append]
    split
    · rename_i h
      rw [ih, List.any_cons]
      by_cases hn : a.name = n
      · subst hn
        dsimp only at h
        rw [ih] at h
        simp [h]
      · simp [hn]
    · rw [List.any_append, ih, List.any_cons, Bool.or_comm]
      simp

theorem shown_eq (l : List Attr) (h : Marks l) : shown l = Spec.HtmlTok.firsts (pairs l).reverse := by
  induction l with
  | nil => rfl
  | cons a r ih =>
    have e : (pairs (a :: r)).reverse = (pairs r).reverse ++ [(a.name, a.val)] := by simp [pairs]
    rw [e, firsts_append, firsts_names, ← h.1, ← ih h.2]
    cases ho : a.omitted <;> simp [shown, ho]

theorem emitTag_out (S : Sink σ) (hS : SwitchOk S) (m m2 : M σ) (c : Nat) (x : Spec.HtmlTok.C σ) (h : Core m x) (he : x.ended = false)
    (hm : Marks (cur m).attrs) (hr : emitTag S (go .data m) = some m2) :
    Out m2 false (some c) x (Spec.HtmlTok.emitTag (envOf S) { x with st := .data, rest := x.rest.tail }) := by
  obtain ⟨h1, h2, h3, h4, h5, h6, h7, h8, h9, h10, h11, h12, h13, h14⟩ := h
  unfold emitTag at hr
  unfold Spec.HtmlTok.emitTag
  split_ifs at hr with k1 k2
  · have k : m.kind = 2 := k1
    have hc : cur m = m.startTag := by simp [cur, tagBy, k]
    rw [hc] at hm
    have hat := shown_eq _ hm
    have hsk : S.emit m.sink (.startTag m.startTag.name (Spec.HtmlTok.firsts (pairs m.startTag.attrs).reverse) m.startTag.self) =
      S.emit m.sink (.startTag m.startTag.name (shown m.startTag.attrs) m.startTag.self) := by rw [hat]
    rw [if_neg (by simp [h8, tagOf, k])]
    dsimp only [emit, go] at hr
    split at hr
    · rename_i st hst
      simp only [Option.some.injEq] at hr
      subst hr
      constructor
      · constructor <;> simp [Spec.HtmlTok.emit, envOf, erase, h2, h3, h4, h5, h6, h7, h8, h9, h10, h11, h12, tagOf, hc, hsk, hst, cur, tagBy, k]
        · rcases hS _ _ hst with rfl | rfl | rfl | rfl <;> simp
        · rcases hS _ _ hst with rfl | rfl | rfl | rfl <;> simp
      · simp [Spec.HtmlTok.emit]
      · simpa [Spec.HtmlTok.emit] using he
      · right
        have : st ≠ .attrName := by rcases hS _ _ hst with rfl | rfl | rfl | rfl <;> simp
        simpa [MarksIn, this, cur, tagBy, k] using hm
    · rename_i hst
      simp only [Option.some.injEq] at hr
      subst hr
      constructor
      · constructor <;> simp [Spec.HtmlTok.emit, envOf, erase, h2, h3, h4, h5, h6, h7, h8, h9, h10, h11, h12, tagOf, hc, hsk, hst, cur, tagBy, k]
      · simp [Spec.HtmlTok.emit]
      · simpa [Spec.HtmlTok.emit] using he
      · right
        simpa [MarksIn, cur, tagBy, k] using hm
  · have k : m.kind = 3 := k2
    have hc : cur m = m.endTag := by simp [cur, tagBy, k]
    rw [hc] at hm
    have hat := shown_eq _ hm
    simp only [Option.some.injEq] at hr
    subst hr
    rw [if_pos (by simp [h8, tagOf, k])]
    constructor
    · constructor <;> simp [Spec.HtmlTok.emit, envOf, erase, h2, h3, h4, h5, h6, h7, h8, h9, h10, h11, h12, tagOf, hc, hat, cur, tagBy, k, go, emit]
    · simp [Spec.HtmlTok.emit]
    · simpa [Spec.HtmlTok.emit] using he
    · right
      simpa [MarksIn, cur, tagBy, k, go, emit] using hm

set_option hygiene false in
/-- Comparing the fields. -/
macro "tok_fields" : tactic => `(tactic|
  (constructor
   · constructor <;> simp [go, chr, emit, emitEof, emitCom, emitDoctype, quirks, newDoctype, newComment, newStart, newEnd, pushCom,
       pushDtName, pushPub, pushSys, clearPub, clearSys, Spec.HtmlTok.emit, envOf, erase, tagOf, cur, hs, h2, h3, h4, h5, h6, h7, h8, h9,
       h10, h11, h12, pairs, tagBy_2, tagBy_3, hx, hy]
   · simp [Spec.HtmlTok.emit]
   · simp [Spec.HtmlTok.emit, he]
   · simpa [MarksIn, Marks, cur, go, chr, emit, emitEof, emitCom, emitDoctype, quirks, newDoctype, newComment, newStart, newEnd, pushCom,
       pushDtName, pushPub, pushSys, clearPub, clearSys, hs, tagBy_2, tagBy_3, hx, hy] using hm))

set_option hygiene false in
/-- Computing the step of the table. -/
macro "tok_row" : tactic => `(tactic|
  simp [Spec.HtmlTok.pick, Spec.HtmlTok.table, Spec.HtmlTok.row, Spec.HtmlTok.rowOk, Spec.HtmlTok.rowScript, Spec.HtmlTok.endName,
     Spec.HtmlTok.eofDoctype, List.find?, on_white, on_upper, on_lower, on_alpha, on_alnum, on_digit, on_hex, on_is, on_is2, on_is6,
     on_eof, on_eof', on_any, is_none, white_none, upper_none, lower_none, alpha_none, alnum_none, digit_none, hex_none,
     if_always, if_script, Spec.HtmlTok.Do.run, Spec.HtmlTok.putc, Spec.HtmlTok.Src.val, Spec.HtmlTok.repl, low_upper, *])

/-- The same for a given character. -/
macro "tok_lit" : tactic => `(tactic|
  simp [Spec.HtmlTok.pick, Spec.HtmlTok.table, Spec.HtmlTok.row, Spec.HtmlTok.rowOk, Spec.HtmlTok.rowScript, Spec.HtmlTok.endName,
     Spec.HtmlTok.eofDoctype, List.find?, Spec.HtmlTok.On.ok, Spec.HtmlTok.isUpper, Spec.HtmlTok.isLower, Spec.HtmlTok.isAlpha,
     Spec.HtmlTok.isDigit, Spec.HtmlTok.isAlnum, Spec.HtmlTok.isHex,
     if_always, if_script, Spec.HtmlTok.Do.run, Spec.HtmlTok.putc, Spec.HtmlTok.Src.val, Spec.HtmlTok.repl])

set_option hygiene false in
macro "tok_result" : tactic => `(tactic|
  (simp only [done, re, eofDoctype, Option.some.injEq, Prod.mk.injEq] at hr
   obtain ⟨rfl, rfl⟩ := hr))

set_option hygiene false in
/-- The row of a literal character `hc`, or of a class. -/
macro "tok_done" : tactic => `(tactic|
   first
   | (subst hc; tok_lit; tok_fields)
   | (tok_row; tok_fields))

set_option hygiene false in
macro "tok_sim0" : tactic => `(tactic|
  (tok_result
   tok_row
   tok_fields))

set_option hygiene false in
macro "tok_sim1" : tactic => `(tactic|
  (rename_i hc
   tok_result
   tok_done))

set_option hygiene false in
/-- A branch that appends to the tag name. -/
macro "tok_name" : tactic => `(tactic|
  (rename_i hc
   obtain ⟨hr2, rfl⟩ := doneO_some hr
   obtain ⟨a, b, rfl, hx⟩ := updTag_some hr2
   clear hr hr2
   tok_done))

set_option hygiene false in
/-- A branch that emits the tag. -/
macro "tok_emit" : tactic => `(tactic|
  (rename_i hc
   obtain ⟨hr2, rfl⟩ := doneO_some hr
   have ho := emitTag_out S hS m m2 c x hcore he (by simpa [MarksIn, hs] using hm) hr2
   subst hc
   tok_lit
   exact ho))

set_option hygiene false in
/-- A branch that changes the current attribute and stays. -/
macro "tok_attr" : tactic => `(tactic|
  (rename_i hc
   obtain ⟨hr2, rfl⟩ := doneO_some hr
   obtain ⟨a, b, e, r, rfl, hy1, hx⟩ := updAttr_some hr2
   have hy : (tagBy m.kind m.startTag m.endTag).attrs = e :: r := hy1
   clear hr hr2 hy1
   tok_done))

set_option hygiene false in
/-- A branch that begins an attribute. -/
macro "tok_newAttr" : tactic => `(tactic|
  (rename_i hc
   obtain ⟨m1, hr2, rfl, rfl⟩ := reO_some hr
   obtain ⟨a, b, rfl, hx⟩ := updTag_some hr2
   clear hr hr2
   tok_done))

end Verif.Proof.HtmlTok
