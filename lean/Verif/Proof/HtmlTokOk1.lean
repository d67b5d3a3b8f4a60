import Verif.Proof.HtmlTokInv
/-
Safety of the state functions: texts and tags opening.
-/
namespace Verif.Proof.HtmlTok
open Verif.Model.HtmlTok Verif.Model.HtmlInput Verif.Model.Infra
variable {σ : Type}

theorem data_ok (S : Sink σ) (m : M σ) (c : Option Nat) (h : Pre m c) (hs : m.st = .data) : OkR m c (onData S m c) := by
  have hn := h.need (by rw [hs]; rfl)
  rw [hs] at hn
  cases c with
  | none => unfold onData; tok_ok
  | some c => unfold onData; dsimp only; split_ifs <;> tok_ok

theorem rcdata_ok (S : Sink σ) (m : M σ) (c : Option Nat) (h : Pre m c) (hs : m.st = .rcdata) : OkR m c (onRcdata S m c) := by
  have hn := h.need (by rw [hs]; rfl)
  rw [hs] at hn
  cases c with
  | none => unfold onRcdata; tok_ok
  | some c => unfold onRcdata; dsimp only; split_ifs <;> tok_ok

theorem rawtext_ok (S : Sink σ) (m : M σ) (c : Option Nat) (h : Pre m c) (hs : m.st = .rawtext) : OkR m c (onRawtext S .rawtextLt m c) := by
  have hn := h.need (by rw [hs]; rfl)
  rw [hs] at hn
  cases c with
  | none => unfold onRawtext; tok_ok
  | some c => unfold onRawtext; dsimp only; split_ifs <;> tok_ok

theorem scriptData_ok (S : Sink σ) (m : M σ) (c : Option Nat) (h : Pre m c) (hs : m.st = .scriptData) : OkR m c (onRawtext S .scriptLt m c) := by
  have hn := h.need (by rw [hs]; rfl)
  rw [hs] at hn
  cases c with
  | none => unfold onRawtext; tok_ok
  | some c => unfold onRawtext; dsimp only; split_ifs <;> tok_ok

theorem plaintext_ok (S : Sink σ) (m : M σ) (c : Option Nat) (h : Pre m c) (hs : m.st = .plaintext) : OkR m c (onPlaintext S m c) := by
  have hn := h.need (by rw [hs]; rfl)
  rw [hs] at hn
  cases c with
  | none => unfold onPlaintext; tok_ok
  | some c => unfold onPlaintext; dsimp only; split_ifs <;> tok_ok

theorem tagOpen_ok (S : Sink σ) (m : M σ) (c : Option Nat) (h : Pre m c) (hs : m.st = .tagOpen) : OkR m c (onTagOpen S m c) := by
  have hn := h.need (by rw [hs]; rfl)
  rw [hs] at hn
  cases c with
  | none => unfold onTagOpen; tok_ok
  | some c => unfold onTagOpen; dsimp only; split_ifs <;> tok_ok

theorem endTagOpen_ok (S : Sink σ) (m : M σ) (c : Option Nat) (h : Pre m c) (hs : m.st = .endTagOpen) : OkR m c (onEndTagOpen S m c) := by
  have hn := h.need (by rw [hs]; rfl)
  rw [hs] at hn
  cases c with
  | none => unfold onEndTagOpen; tok_ok
  | some c => unfold onEndTagOpen; dsimp only; split_ifs <;> tok_ok

theorem rcdataLt_ok (S : Sink σ) (m : M σ) (c : Option Nat) (h : Pre m c) (hs : m.st = .rcdataLt) : OkR m c (onRawLt S .rcdata .rcdataEndOpen m c) := by
  have hn := h.need (by rw [hs]; rfl)
  rw [hs] at hn
  cases c with
  | none => unfold onRawLt; tok_ok
  | some c => unfold onRawLt; dsimp only; split_ifs <;> tok_ok

theorem rcdataEndOpen_ok (S : Sink σ) (m : M σ) (c : Option Nat) (h : Pre m c) (hs : m.st = .rcdataEndOpen) : OkR m c (onRawEndOpen S .rcdata .rcdataEndName m c) := by
  have hn := h.need (by rw [hs]; rfl)
  rw [hs] at hn
  cases c with
  | none => unfold onRawEndOpen; tok_ok
  | some c => unfold onRawEndOpen; dsimp only; split_ifs <;> tok_ok

theorem rawtextLt_ok (S : Sink σ) (m : M σ) (c : Option Nat) (h : Pre m c) (hs : m.st = .rawtextLt) : OkR m c (onRawLt S .rawtext .rawtextEndOpen m c) := by
  have hn := h.need (by rw [hs]; rfl)
  rw [hs] at hn
  cases c with
  | none => unfold onRawLt; tok_ok
  | some c => unfold onRawLt; dsimp only; split_ifs <;> tok_ok

theorem rawtextEndOpen_ok (S : Sink σ) (m : M σ) (c : Option Nat) (h : Pre m c) (hs : m.st = .rawtextEndOpen) : OkR m c (onRawEndOpen S .rawtext .rawtextEndName m c) := by
  have hn := h.need (by rw [hs]; rfl)
  rw [hs] at hn
  cases c with
  | none => unfold onRawEndOpen; tok_ok
  | some c => unfold onRawEndOpen; dsimp only; split_ifs <;> tok_ok

theorem scriptLt_ok (S : Sink σ) (m : M σ) (c : Option Nat) (h : Pre m c) (hs : m.st = .scriptLt) : OkR m c (onScriptLt S m c) := by
  have hn := h.need (by rw [hs]; rfl)
  rw [hs] at hn
  cases c with
  | none => unfold onScriptLt; tok_ok
  | some c => unfold onScriptLt; dsimp only; split_ifs <;> tok_ok

theorem scriptEndOpen_ok (S : Sink σ) (m : M σ) (c : Option Nat) (h : Pre m c) (hs : m.st = .scriptEndOpen) : OkR m c (onRawEndOpen S .scriptData .scriptEndName m c) := by
  have hn := h.need (by rw [hs]; rfl)
  rw [hs] at hn
  cases c with
  | none => unfold onRawEndOpen; tok_ok
  | some c => unfold onRawEndOpen; dsimp only; split_ifs <;> tok_ok

theorem scriptEscStart_ok (S : Sink σ) (m : M σ) (c : Option Nat) (h : Pre m c) (hs : m.st = .scriptEscStart) : OkR m c (onEscStart S .scriptEscStartDash m c) := by
  have hn := h.need (by rw [hs]; rfl)
  rw [hs] at hn
  cases c with
  | none => unfold onEscStart; tok_ok
  | some c => unfold onEscStart; dsimp only; split_ifs <;> tok_ok

theorem scriptEscStartDash_ok (S : Sink σ) (m : M σ) (c : Option Nat) (h : Pre m c) (hs : m.st = .scriptEscStartDash) : OkR m c (onEscStart S .scriptEscDashDash m c) := by
  have hn := h.need (by rw [hs]; rfl)
  rw [hs] at hn
  cases c with
  | none => unfold onEscStart; tok_ok
  | some c => unfold onEscStart; dsimp only; split_ifs <;> tok_ok

theorem scriptEsc_ok (S : Sink σ) (m : M σ) (c : Option Nat) (h : Pre m c) (hs : m.st = .scriptEsc) : OkR m c (onScriptEsc S m c) := by
  have hn := h.need (by rw [hs]; rfl)
  rw [hs] at hn
  cases c with
  | none => unfold onScriptEsc; tok_ok
  | some c => unfold onScriptEsc; dsimp only; split_ifs <;> tok_ok

theorem scriptEscDash_ok (S : Sink σ) (m : M σ) (c : Option Nat) (h : Pre m c) (hs : m.st = .scriptEscDash) : OkR m c (onScriptEscDash S m c) := by
  have hn := h.need (by rw [hs]; rfl)
  rw [hs] at hn
  cases c with
  | none => unfold onScriptEscDash; tok_ok
  | some c => unfold onScriptEscDash; dsimp only; split_ifs <;> tok_ok

theorem scriptEscDashDash_ok (S : Sink σ) (m : M σ) (c : Option Nat) (h : Pre m c) (hs : m.st = .scriptEscDashDash) : OkR m c (onScriptEscDashDash S m c) := by
  have hn := h.need (by rw [hs]; rfl)
  rw [hs] at hn
  cases c with
  | none => unfold onScriptEscDashDash; tok_ok
  | some c => unfold onScriptEscDashDash; dsimp only; split_ifs <;> tok_ok

theorem scriptEscLt_ok (S : Sink σ) (m : M σ) (c : Option Nat) (h : Pre m c) (hs : m.st = .scriptEscLt) : OkR m c (onScriptEscLt S m c) := by
  have hn := h.need (by rw [hs]; rfl)
  rw [hs] at hn
  cases c with
  | none => unfold onScriptEscLt; tok_ok
  | some c => unfold onScriptEscLt; dsimp only; split_ifs <;> tok_ok

theorem scriptEscEndOpen_ok (S : Sink σ) (m : M σ) (c : Option Nat) (h : Pre m c) (hs : m.st = .scriptEscEndOpen) : OkR m c (onRawEndOpen S .scriptEsc .scriptEscEndName m c) := by
  have hn := h.need (by rw [hs]; rfl)
  rw [hs] at hn
  cases c with
  | none => unfold onRawEndOpen; tok_ok
  | some c => unfold onRawEndOpen; dsimp only; split_ifs <;> tok_ok

theorem scriptDblStart_ok (S : Sink σ) (m : M σ) (c : Option Nat) (h : Pre m c) (hs : m.st = .scriptDblStart) : OkR m c (onScriptDblStart S m c) := by
  have hn := h.need (by rw [hs]; rfl)
  rw [hs] at hn
  cases c with
  | none => unfold onScriptDblStart; tok_ok
  | some c => unfold onScriptDblStart; dsimp only; split_ifs <;> tok_ok

theorem scriptDbl_ok (S : Sink σ) (m : M σ) (c : Option Nat) (h : Pre m c) (hs : m.st = .scriptDbl) : OkR m c (onScriptDbl S m c) := by
  have hn := h.need (by rw [hs]; rfl)
  rw [hs] at hn
  cases c with
  | none => unfold onScriptDbl; tok_ok
  | some c => unfold onScriptDbl; dsimp only; split_ifs <;> tok_ok

theorem scriptDblDash_ok (S : Sink σ) (m : M σ) (c : Option Nat) (h : Pre m c) (hs : m.st = .scriptDblDash) : OkR m c (onScriptDblDash S m c) := by
  have hn := h.need (by rw [hs]; rfl)
  rw [hs] at hn
  cases c with
  | none => unfold onScriptDblDash; tok_ok
  | some c => unfold onScriptDblDash; dsimp only; split_ifs <;> tok_ok

theorem scriptDblDashDash_ok (S : Sink σ) (m : M σ) (c : Option Nat) (h : Pre m c) (hs : m.st = .scriptDblDashDash) : OkR m c (onScriptDblDashDash S m c) := by
  have hn := h.need (by rw [hs]; rfl)
  rw [hs] at hn
  cases c with
  | none => unfold onScriptDblDashDash; tok_ok
  | some c => unfold onScriptDblDashDash; dsimp only; split_ifs <;> tok_ok

theorem scriptDblLt_ok (S : Sink σ) (m : M σ) (c : Option Nat) (h : Pre m c) (hs : m.st = .scriptDblLt) : OkR m c (onScriptDblLt S m c) := by
  have hn := h.need (by rw [hs]; rfl)
  rw [hs] at hn
  cases c with
  | none => unfold onScriptDblLt; tok_ok
  | some c => unfold onScriptDblLt; dsimp only; split_ifs <;> tok_ok

theorem scriptDblEnd_ok (S : Sink σ) (m : M σ) (c : Option Nat) (h : Pre m c) (hs : m.st = .scriptDblEnd) : OkR m c (onScriptDblEnd S m c) := by
  have hn := h.need (by rw [hs]; rfl)
  rw [hs] at hn
  cases c with
  | none => unfold onScriptDblEnd; tok_ok
  | some c => unfold onScriptDblEnd; dsimp only; split_ifs <;> tok_ok

end Verif.Proof.HtmlTok
