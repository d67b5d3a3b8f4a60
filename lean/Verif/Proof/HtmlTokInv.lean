import Verif.Model.HtmlTok
import Verif.Spec.HtmlTokBridge
import Mathlib.Tactic.SplitIfs
import Mathlib.Tactic.Tauto
/-
Classification of the tokenizer states, the invariant of the model, and the safety of the state functions.
-/
namespace Verif.Proof.HtmlTok
open Verif.Model.HtmlTok Verif.Model.HtmlInput Verif.Model.Infra

export Verif.Spec.HtmlTokBridge (stOf erase envOf SwitchOk FindOk Agree Trouble)


/-- The states of character references, which come back to the return state. -/
def refSt : St → Bool
  | .charRef | .namedRef | .ambiguousAmp | .numericRef | .hexStart | .decStart | .hexRef | .decRef | .numericEnd => true
  | _ => false

/-- The states outside of tags. -/
def freeSt : St → Bool
  | .data | .tagOpen | .endTagOpen | .bogusComment | .markupDecl | .commentStart | .commentStartDash | .comment | .commentLt | .commentLtBang | .commentLtBangDash | .commentLtBangDashDash | .commentEndDash | .commentEnd | .commentEndBang | .doctype | .beforeDoctypeName | .doctypeName | .afterDoctypeName | .afterPublicKw | .beforePublicId | .publicIdDq | .publicIdSq | .afterPublicId | .betweenIds | .afterSystemKw | .beforeSystemId | .systemIdDq | .systemIdSq | .afterSystemId | .bogusDoctype | .cdata | .cdataBracket | .cdataEnd => true
  | _ => false

/-- The states that append to the current attribute, or lead to such. -/
def attrSt : St → Bool
  | .attrName | .beforeAttrValue | .attrValueDq | .attrValueSq | .attrValueUq => true
  | _ => false

/-- The possible return states. -/
def isRet : St → Bool
  | .data | .rcdata | .attrValueDq | .attrValueSq | .attrValueUq => true
  | _ => false

/-- The end tag name states, which ask for the appropriate end tag. -/
def endSt : St → Bool
  | .rcdataEndName | .rawtextEndName | .scriptEndName | .scriptEscEndName => true
  | _ => false

/-- The states whose functions do not begin with `consume()`, or look ahead. -/
def special : St → Bool
  | .markupDecl | .afterDoctypeName | .namedRef | .numericEnd => true
  | _ => false

def closes : Option Nat → Bool
  | none => true
  | some c => ws c || c == 0x2F || c == 0x3E

/-- How many states may reconsume the same character from here. -/
def rank (st : St) (c : Option Nat) : Nat :=
  match st with
  | .attrName => if closes c then 2 else 1
  | .afterAttrName => if closes c then 1 else 2
  | .beforeAttrName => 3
  | .afterAttrValue | .selfClosing => 4
  | .tagOpen | .endTagOpen => 1
  | .rcdataLt | .rawtextLt | .scriptLt | .scriptEscStart | .scriptEscStartDash => 1
  | .rcdataEndName | .rawtextEndName | .scriptEndName | .scriptEscEndName => 1
  | .rcdataEndOpen | .rawtextEndOpen | .scriptEndOpen | .scriptEscEndOpen => 2
  | .scriptDblStart => 1
  | .scriptEscLt => 2
  | .scriptDblLt | .scriptDblEnd => 1
  | .beforeAttrValue => 1
  | .markupDecl => 1
  | .commentStart | .commentStartDash | .commentLt | .commentLtBang | .commentEndDash | .commentEnd | .commentEndBang => 1
  | .commentLtBangDash | .commentLtBangDashDash => 2
  | .doctype => 1
  | .afterDoctypeName | .afterPublicKw | .beforePublicId | .afterPublicId | .betweenIds | .afterSystemKw | .beforeSystemId
  | .afterSystemId => 1
  | .cdataBracket | .cdataEnd => 1
  | .numericEnd => 1
  | .hexRef | .decRef | .ambiguousAmp => 2
  | .hexStart | .decStart | .namedRef => 3
  | .numericRef | .charRef => 4
  | _ => 0

variable {σ : Type}

def hasTag (m : M σ) : Prop := m.kind = 2 ∨ m.kind = 3
def hasAttr (m : M σ) : Prop := (m.kind = 2 ∧ m.startTag.attrs ≠ []) ∨ (m.kind = 3 ∧ m.endTag.attrs ≠ [])

def Need (e : St) (m : M σ) : Prop := (freeSt e = false → hasTag m) ∧ (attrSt e = true → hasAttr m)

/-- What a state function relies on; `c` is the character it gets. -/
structure Pre (m : M σ) (c : Option Nat) : Prop where
  ret : refSt m.st = true → ∃ e, m.ret = some e ∧ isRet e = true ∧ Need e m
  need : refSt m.st = false → Need m.st m
  endk : endSt m.st = true → m.kind = 3
  after : m.st = .afterAttrName → hasAttr m ∨ c = some 0x2F ∨ c = some 0x3E ∨ c = none

/-- What it leaves behind. -/
structure Ok (m0 : M σ) (c : Option Nat) (m : M σ) (b : Bool) : Prop where
  inp : m.inp = m0.inp
  ret : refSt m.st = true → ∃ e, m.ret = some e ∧ isRet e = true ∧ Need e m
  need : refSt m.st = false → Need m.st m
  endk : endSt m.st = true → m.kind = 3
  after : m.st = .afterAttrName → hasAttr m ∨ (b = true ∧ (c = some 0x2F ∨ c = some 0x3E)) ∨ c = none
  rank : b = true → rank m.st c < rank m0.st c
  stay : c = none → b = false → m.st = m0.st
  amp : m.st = .charRef → b = false ∧ c = some 0x26
  named : m.st = .namedRef → b = true ∧ m0.st = .charRef

def OkR (m0 : M σ) (c : Option Nat) (r : R σ) : Prop := ∃ m b, r = some (m, b) ∧ Ok m0 c m b

/-- Changes of the current tag. -/
structure Keeps (m m' : M σ) : Prop where
  inp : m'.inp = m.inp
  st : m'.st = m.st
  ret : m'.ret = m.ret
  kind : m'.kind = m.kind
  attr : hasAttr m → hasAttr m'

theorem Keeps.trans {a b c : M σ} (h : Keeps a b) (h' : Keeps b c) : Keeps a c :=
  ⟨h'.inp.trans h.inp, h'.st.trans h.st, h'.ret.trans h.ret, h'.kind.trans h.kind, fun x => h'.attr (h.attr x)⟩

theorem Keeps.refl (m : M σ) : Keeps m m := ⟨rfl, rfl, rfl, rfl, id⟩

theorem updTag_keeps (f : Tag → Tag) (m : M σ) (hk : hasTag m) (hf : ∀ t, t.attrs ≠ [] → (f t).attrs ≠ []) :
    ∃ m', updTag f m = some m' ∧ Keeps m m' := by
  unfold updTag
  rcases hk with hk | hk
  · rw [if_pos hk]
    refine ⟨_, rfl, rfl, rfl, rfl, rfl, ?_⟩
    rintro (⟨_, h⟩ | ⟨h, _⟩)
    · exact Or.inl ⟨hk, hf _ h⟩
    · omega
  · rw [if_neg (by omega), if_pos hk]
    refine ⟨_, rfl, rfl, rfl, rfl, rfl, ?_⟩
    rintro (⟨h, _⟩ | ⟨_, h⟩)
    · omega
    · exact Or.inr ⟨hk, hf _ h⟩

theorem pushName_keeps (c : Nat) (m : M σ) (hk : hasTag m) : ∃ m', pushName c m = some m' ∧ Keeps m m' :=
  updTag_keeps _ m hk (fun _ h => h)

theorem newAttr_keeps (m : M σ) (hk : hasTag m) : ∃ m', newAttr m = some m' ∧ Keeps m m' ∧ hasAttr m' := by
  unfold newAttr updTag
  rcases hk with hk | hk
  · rw [if_pos hk]
    exact ⟨_, rfl, ⟨rfl, rfl, rfl, rfl, fun _ => Or.inl ⟨hk, by simp⟩⟩, Or.inl ⟨hk, by simp⟩⟩
  · rw [if_neg (by omega), if_pos hk]
    exact ⟨_, rfl, ⟨rfl, rfl, rfl, rfl, fun _ => Or.inr ⟨hk, by simp⟩⟩, Or.inr ⟨hk, by simp⟩⟩

theorem hasAttr_tag {m : M σ} (h : hasAttr m) : hasTag m := by
  rcases h with ⟨h, _⟩ | ⟨h, _⟩
  · exact Or.inl h
  · exact Or.inr h

theorem updAttr_keeps (f : Attr → Attr) (m : M σ) (h : hasAttr m) : ∃ m', updAttr f m = some m' ∧ Keeps m m' := by
  have hk := hasAttr_tag h
  unfold updAttr curTag
  rcases h with ⟨h1, h2⟩ | ⟨h1, h2⟩
  · rw [if_pos h1]
    dsimp only
    cases e : m.startTag.attrs with
    | nil => exact absurd e h2
    | cons a r => exact updTag_keeps _ m hk (fun t _ => by simp)
  · rw [if_neg (by omega), if_pos h1]
    dsimp only
    cases e : m.endTag.attrs with
    | nil => exact absurd e h2
    | cons a r => exact updTag_keeps _ m hk (fun t _ => by simp)

theorem unify_keeps (m : M σ) (h : hasAttr m) : ∃ m', unify m = some m' ∧ Keeps m m' := by
  have hk := hasAttr_tag h
  unfold unify curTag
  rcases h with ⟨h1, h2⟩ | ⟨h1, h2⟩
  · rw [if_pos h1]
    dsimp only
    cases e : m.startTag.attrs with
    | nil => exact absurd e h2
    | cons a r => exact updTag_keeps _ m hk (fun t _ => by simp)
  · rw [if_neg (by omega), if_pos h1]
    dsimp only
    cases e : m.endTag.attrs with
    | nil => exact absurd e h2
    | cons a r => exact updTag_keeps _ m hk (fun t _ => by simp)

theorem chrs_keeps (S : Sink σ) (l : List Nat) (m : M σ) : Keeps m (chrs S l m) := by
  induction l generalizing m with
  | nil => exact Keeps.refl m
  | cons c l ih =>
    refine Keeps.trans (b := chr S c m) ⟨rfl, rfl, rfl, rfl, id⟩ ?_
    exact ih (chr S c m)

theorem pushAttrVals_keeps (l : List Nat) (m : M σ) (h : hasAttr m) : ∃ m', pushAttrVals l m = some m' ∧ Keeps m m' := by
  induction l generalizing m with
  | nil => exact ⟨m, rfl, Keeps.refl m⟩
  | cons c l ih =>
    obtain ⟨m1, e1, k1⟩ := updAttr_keeps (fun a => { a with val := a.val ++ [c] }) m h
    obtain ⟨m2, e2, k2⟩ := ih m1 (k1.attr h)
    refine ⟨m2, ?_, k1.trans k2⟩
    simp only [pushAttrVals, pushAttrVal, e1, e2]

theorem flushRef_keeps (S : Sink σ) (m : M σ) (h : ∃ e, m.ret = some e ∧ isRet e = true ∧ Need e m) :
    ∃ m', flushRef S m = some m' ∧ Keeps m m' := by
  unfold flushRef
  split
  · rename_i hi
    apply pushAttrVals_keeps
    obtain ⟨e, he, hr, hn⟩ := h
    apply hn.2
    unfold inAttr at hi
    rw [he] at hi
    revert hi
    cases e <;> decide
  · exact ⟨_, rfl, chrs_keeps S _ _⟩

theorem Need.keeps {e : St} {m m' : M σ} (h : Need e m) (k : Keeps m m') : Need e m' := by
  refine ⟨fun x => ?_, fun x => k.attr (h.2 x)⟩
  have := h.1 x
  unfold hasTag at this ⊢
  rw [k.kind]
  exact this

theorem emitTag_ok (S : Sink σ) (hS : SwitchOk S) (m m0 : M σ) (c : Option Nat) (hc : c ≠ none) (hk : hasTag m) (hi : m.inp = m0.inp) :
    OkR m0 c (doneO (emitTag S (go .data m))) := by
  unfold emitTag
  rcases hk with hk | hk
  · rw [if_pos (show (go St.data m).kind = 2 from hk)]
    dsimp only
    split
    · rename_i st hst
      refine ⟨_, _, rfl, ?_⟩
      rcases hS _ _ hst with rfl | rfl | rfl | rfl <;>
        constructor <;> simp [go, emit, hi, refSt, Need, freeSt, attrSt, endSt, hasTag, hk, hc]
    · refine ⟨_, _, rfl, ?_⟩
      constructor <;> simp [go, emit, hi, refSt, Need, freeSt, attrSt, endSt, hasTag, hk, hc]
  · rw [if_neg (show ¬(go St.data m).kind = 2 by simp [go]; omega), if_pos (show (go St.data m).kind = 3 from hk)]
    refine ⟨_, _, rfl, ?_⟩
    constructor <;> simp [go, emit, hi, refSt, Need, freeSt, attrSt, endSt, hasTag, hk, hc]

/-- Closing the goals of a branch that ends in `done` or `re`. -/
macro "tok_ok" : tactic => `(tactic|
  (refine ⟨_, _, rfl, ?_⟩
   constructor <;> simp_all [go, emit, chr, emitEof, emitCom, emitDoctype, quirks, newDoctype, newComment, newStart, newEnd, pushCom, done, re, eofDoctype,
     pushDtName, pushPub, pushSys, clearPub, clearSys,
     refSt, isRet, Need, freeSt, attrSt, endSt, hasTag, hasAttr, rank]))

/-- A branch that changes the current tag and stays in the state. -/
theorem stay_ok (m : M σ) (c : Nat) (o : Option (M σ)) (h : Pre m (some c))
    (hs : m.st ≠ .afterAttrName ∧ m.st ≠ .charRef ∧ m.st ≠ .namedRef) (ho : ∃ m', o = some m' ∧ Keeps m m') : OkR m (some c) (doneO o) := by
  obtain ⟨m', rfl, k⟩ := ho
  refine ⟨m', false, rfl, k.inp, ?_, ?_, ?_, ?_, by simp, by simp, ?_, ?_⟩
  · rw [k.st, k.ret]
    intro hr
    obtain ⟨e, h1, h2, h3⟩ := h.ret hr
    exact ⟨e, h1, h2, h3.keeps k⟩
  · rw [k.st]
    exact fun hr => (h.need hr).keeps k
  · rw [k.st, k.kind]
    exact h.endk
  · rw [k.st]
    exact fun x => absurd x hs.1
  · rw [k.st]
    exact fun x => absurd x hs.2.1
  · rw [k.st]
    exact fun x => absurd x hs.2.2

theorem pushNameTmp_keeps (c d : Nat) (m : M σ) (hk : hasTag m) :
    ∃ m', ((pushName c m).map fun m => { m with tmp := m.tmp ++ [d] }) = some m' ∧ Keeps m m' := by
  obtain ⟨m1, e1, k1⟩ := pushName_keeps c m hk
  rw [e1]
  exact ⟨_, rfl, k1.inp, k1.st, k1.ret, k1.kind, k1.attr⟩

/-- Going to another tag state. -/
theorem go_ok (m m' : M σ) (c : Option Nat) (st : St) (b : Bool) (k : Keeps m m') (hn : Need st m') (hr : refSt st = false)
    (he : endSt st = false) (ha : st = .afterAttrName → hasAttr m') (hrank : b = true → rank st c < rank m.st c)
    (hst : c = none → b = false → st = m.st) : OkR m c (some (go st m', b)) := by
  refine ⟨_, _, rfl, k.inp, ?_, ?_, ?_, ?_, hrank, hst, ?_, ?_⟩
  · intro h; simp [go, hr] at h
  · intro _; exact hn
  · intro h; simp [go, he] at h
  · intro h; exact Or.inl (ha h)
  all_goals
    intro x
    rw [show st = _ from x] at hr
    cases hr

theorem flushBack_ok (S : Sink σ) (m m0 : M σ) (c : Option Nat) (h : ∃ e, m.ret = some e ∧ isRet e = true ∧ Need e m)
    (hi : m.inp = m0.inp) (hr : 0 < rank m0.st c) : OkR m0 c (flushBack S m) := by
  obtain ⟨m1, e1, k1⟩ := flushRef_keeps S m h
  obtain ⟨e, h1, h2, h3⟩ := h
  unfold flushBack reRet re
  rw [e1]
  dsimp only
  rw [k1.ret, h1]
  dsimp only
  have h4 := h3.keeps k1
  refine ⟨_, _, rfl, k1.inp.trans hi, ?_, ?_, ?_, ?_, ?_, by simp, ?_, ?_⟩
  · intro h; revert h2 h; cases e <;> simp [go, refSt, isRet]
  · exact fun _ => h4
  · intro h; revert h2 h; cases e <;> simp [go, endSt, isRet]
  · intro h; revert h2 h; cases e <;> simp [go, isRet]
  · intro _
    have : rank (go e m1).st c = 0 := by revert h2; cases e <;> simp [go, rank, isRet]
    omega
  all_goals
    intro h; revert h2 h; cases e <;> simp [go, isRet]

theorem reRet_ok (m m0 : M σ) (c : Option Nat) (h : ∃ e, m.ret = some e ∧ isRet e = true ∧ Need e m)
    (hi : m.inp = m0.inp) (hr : 0 < rank m0.st c) : OkR m0 c (reRet m) := by
  obtain ⟨e, h1, h2, h3⟩ := h
  unfold reRet re
  rw [h1]
  dsimp only
  refine ⟨_, _, rfl, hi, ?_, ?_, ?_, ?_, ?_, by simp, ?_, ?_⟩
  · intro h; revert h2 h; cases e <;> simp [go, refSt, isRet]
  · exact fun _ => h3
  · intro h; revert h2 h; cases e <;> simp [go, endSt, isRet]
  · intro h; revert h2 h; cases e <;> simp [go, isRet]
  · intro _
    have : rank (go e m).st c = 0 := by revert h2; cases e <;> simp [go, rank, isRet]
    omega
  all_goals
    intro h; revert h2 h; cases e <;> simp [go, isRet]

end Verif.Proof.HtmlTok
