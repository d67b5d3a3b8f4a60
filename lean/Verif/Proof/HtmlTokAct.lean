import Verif.Proof.HtmlTokOk1
import Verif.Proof.HtmlTokOk2
import Verif.Proof.HtmlTokOk3
/-
Safety of all state functions, the look ahead ones included.
-/
namespace Verif.Proof.HtmlTok
open Verif.Model.HtmlTok Verif.Model.HtmlInput Verif.Model.Infra
variable {σ : Type}

theorem act_ok (S : Sink σ) (hS : SwitchOk S) (m : M σ) (c : Option Nat) (h : Pre m c) (hsp : special m.st = false) :
    OkR m c (act S m.st m c) := by
  cases hs : m.st with
  | markupDecl | afterDoctypeName | namedRef | numericEnd => rw [hs] at hsp; cases hsp
  | data => exact data_ok S m c h hs
  | rcdata => exact rcdata_ok S m c h hs
  | rawtext => exact rawtext_ok S m c h hs
  | scriptData => exact scriptData_ok S m c h hs
  | plaintext => exact plaintext_ok S m c h hs
  | tagOpen => exact tagOpen_ok S m c h hs
  | endTagOpen => exact endTagOpen_ok S m c h hs
  | tagName => exact tagName_ok S hS m c h hs
  | rcdataLt => exact rcdataLt_ok S m c h hs
  | rcdataEndOpen => exact rcdataEndOpen_ok S m c h hs
  | rcdataEndName => exact rawEndName_ok S hS _ m c h (by rw [hs]; rfl) (Or.inl rfl)
  | rawtextLt => exact rawtextLt_ok S m c h hs
  | rawtextEndOpen => exact rawtextEndOpen_ok S m c h hs
  | rawtextEndName => exact rawEndName_ok S hS _ m c h (by rw [hs]; rfl) (Or.inr (Or.inl rfl))
  | scriptLt => exact scriptLt_ok S m c h hs
  | scriptEndOpen => exact scriptEndOpen_ok S m c h hs
  | scriptEndName => exact rawEndName_ok S hS _ m c h (by rw [hs]; rfl) (Or.inr (Or.inr (Or.inl rfl)))
  | scriptEscStart => exact scriptEscStart_ok S m c h hs
  | scriptEscStartDash => exact scriptEscStartDash_ok S m c h hs
  | scriptEsc => exact scriptEsc_ok S m c h hs
  | scriptEscDash => exact scriptEscDash_ok S m c h hs
  | scriptEscDashDash => exact scriptEscDashDash_ok S m c h hs
  | scriptEscLt => exact scriptEscLt_ok S m c h hs
  | scriptEscEndOpen => exact scriptEscEndOpen_ok S m c h hs
  | scriptEscEndName => exact rawEndName_ok S hS _ m c h (by rw [hs]; rfl) (Or.inr (Or.inr (Or.inr rfl)))
  | scriptDblStart => exact scriptDblStart_ok S m c h hs
  | scriptDbl => exact scriptDbl_ok S m c h hs
  | scriptDblDash => exact scriptDblDash_ok S m c h hs
  | scriptDblDashDash => exact scriptDblDashDash_ok S m c h hs
  | scriptDblLt => exact scriptDblLt_ok S m c h hs
  | scriptDblEnd => exact scriptDblEnd_ok S m c h hs
  | beforeAttrName => exact beforeAttrName_ok m c h hs
  | attrName => exact attrName_ok m c h hs
  | afterAttrName => exact afterAttrName_ok S hS m c h hs
  | beforeAttrValue => exact beforeAttrValue_ok S hS m c h hs
  | attrValueDq => exact by have := attrValueQ_ok S 0x22 m c h (Or.inl hs); rw [hs] at this; exact this
  | attrValueSq => exact by have := attrValueQ_ok S 0x27 m c h (Or.inr hs); rw [hs] at this; exact this
  | attrValueUq => exact attrValueUq_ok S hS m c h hs
  | afterAttrValue => exact afterAttrValue_ok S hS m c h hs
  | selfClosing => exact selfClosing_ok S hS m c h hs
  | bogusComment => exact bogusComment_ok S m c h hs
  | commentStart => exact commentStart_ok S m c h hs
  | commentStartDash => exact commentStartDash_ok S m c h hs
  | comment => exact comment_ok S m c h hs
  | commentLt => exact commentLt_ok S m c h hs
  | commentLtBang => exact commentLtBang_ok S m c h hs
  | commentLtBangDash => exact commentLtBangDash_ok S m c h hs
  | commentLtBangDashDash => exact commentLtBangDashDash_ok S m c h hs
  | commentEndDash => exact commentEndDash_ok S m c h hs
  | commentEnd => exact commentEnd_ok S m c h hs
  | commentEndBang => exact commentEndBang_ok S m c h hs
  | doctype => exact doctype_ok S m c h hs
  | beforeDoctypeName => exact beforeDoctypeName_ok S m c h hs
  | doctypeName => exact doctypeName_ok S m c h hs
  | afterPublicKw => exact afterPublicKw_ok S m c h hs
  | beforePublicId => exact beforePublicId_ok S m c h hs
  | publicIdDq => exact publicIdDq_ok S m c h hs
  | publicIdSq => exact publicIdSq_ok S m c h hs
  | afterPublicId => exact afterPublicId_ok S m c h hs
  | betweenIds => exact betweenIds_ok S m c h hs
  | afterSystemKw => exact afterSystemKw_ok S m c h hs
  | beforeSystemId => exact beforeSystemId_ok S m c h hs
  | systemIdDq => exact systemIdDq_ok S m c h hs
  | systemIdSq => exact systemIdSq_ok S m c h hs
  | afterSystemId => exact afterSystemId_ok S m c h hs
  | bogusDoctype => exact bogusDoctype_ok S m c h hs
  | cdata => exact cdata_ok S m c h hs
  | cdataBracket => exact cdataBracket_ok S m c h hs
  | cdataEnd => exact cdataEnd_ok S m c h hs
  | charRef => exact charRef_ok S m c h hs
  | ambiguousAmp => exact ambiguousAmp_ok S m c h hs
  | numericRef => exact numericRef_ok m c h hs
  | hexStart => exact hexStart_ok S m c h hs
  | decStart => exact decStart_ok S m c h hs
  | hexRef => exact hexRef_ok m c h hs
  | decRef => exact decRef_ok m c h hs

end Verif.Proof.HtmlTok
