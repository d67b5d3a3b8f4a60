import Verif.Proof.HtmlTokInv
/-
Safety of the state functions: comments, document types, CDATA sections.
-/
namespace Verif.Proof.HtmlTok
open Verif.Model.HtmlTok Verif.Model.HtmlInput Verif.Model.Infra
variable {σ : Type}

theorem bogusComment_ok (S : Sink σ) (m : M σ) (c : Option Nat) (h : Pre m c) (hs : m.st = .bogusComment) : OkR m c (onBogusComment S m c) := by
  have hn := h.need (by rw [hs]; rfl)
  rw [hs] at hn
  cases c with
  | none => unfold onBogusComment; tok_ok
  | some c => unfold onBogusComment; dsimp only; split_ifs <;> tok_ok

theorem commentStart_ok (S : Sink σ) (m : M σ) (c : Option Nat) (h : Pre m c) (hs : m.st = .commentStart) : OkR m c (onCommentStart S m c) := by
  have hn := h.need (by rw [hs]; rfl)
  rw [hs] at hn
  cases c with
  | none => unfold onCommentStart; tok_ok
  | some c => unfold onCommentStart; dsimp only; split_ifs <;> tok_ok

theorem commentStartDash_ok (S : Sink σ) (m : M σ) (c : Option Nat) (h : Pre m c) (hs : m.st = .commentStartDash) : OkR m c (onCommentStartDash S m c) := by
  have hn := h.need (by rw [hs]; rfl)
  rw [hs] at hn
  cases c with
  | none => unfold onCommentStartDash; tok_ok
  | some c => unfold onCommentStartDash; dsimp only; split_ifs <;> tok_ok

theorem comment_ok (S : Sink σ) (m : M σ) (c : Option Nat) (h : Pre m c) (hs : m.st = .comment) : OkR m c (onComment S m c) := by
  have hn := h.need (by rw [hs]; rfl)
  rw [hs] at hn
  cases c with
  | none => unfold onComment; tok_ok
  | some c => unfold onComment; dsimp only; split_ifs <;> tok_ok

theorem commentLt_ok (S : Sink σ) (m : M σ) (c : Option Nat) (h : Pre m c) (hs : m.st = .commentLt) : OkR m c (onCommentLt m c) := by
  have hn := h.need (by rw [hs]; rfl)
  rw [hs] at hn
  cases c with
  | none => unfold onCommentLt; tok_ok
  | some c => unfold onCommentLt; dsimp only; split_ifs <;> tok_ok

theorem commentLtBang_ok (S : Sink σ) (m : M σ) (c : Option Nat) (h : Pre m c) (hs : m.st = .commentLtBang) : OkR m c (onCommentBang .commentLtBangDash .comment m c) := by
  have hn := h.need (by rw [hs]; rfl)
  rw [hs] at hn
  cases c with
  | none => unfold onCommentBang; tok_ok
  | some c => unfold onCommentBang; dsimp only; split_ifs <;> tok_ok

theorem commentLtBangDash_ok (S : Sink σ) (m : M σ) (c : Option Nat) (h : Pre m c) (hs : m.st = .commentLtBangDash) : OkR m c (onCommentBang .commentLtBangDashDash .commentEndDash m c) := by
  have hn := h.need (by rw [hs]; rfl)
  rw [hs] at hn
  cases c with
  | none => unfold onCommentBang; tok_ok
  | some c => unfold onCommentBang; dsimp only; split_ifs <;> tok_ok

theorem commentLtBangDashDash_ok (S : Sink σ) (m : M σ) (c : Option Nat) (h : Pre m c) (hs : m.st = .commentLtBangDashDash) : OkR m c (onCommentBangDashDash m c) := by
  have hn := h.need (by rw [hs]; rfl)
  rw [hs] at hn
  cases c with
  | none => unfold onCommentBangDashDash; tok_ok
  | some c => unfold onCommentBangDashDash; dsimp only; split_ifs <;> tok_ok

theorem commentEndDash_ok (S : Sink σ) (m : M σ) (c : Option Nat) (h : Pre m c) (hs : m.st = .commentEndDash) : OkR m c (onCommentEndDash S m c) := by
  have hn := h.need (by rw [hs]; rfl)
  rw [hs] at hn
  cases c with
  | none => unfold onCommentEndDash; tok_ok
  | some c => unfold onCommentEndDash; dsimp only; split_ifs <;> tok_ok

theorem commentEnd_ok (S : Sink σ) (m : M σ) (c : Option Nat) (h : Pre m c) (hs : m.st = .commentEnd) : OkR m c (onCommentEnd S m c) := by
  have hn := h.need (by rw [hs]; rfl)
  rw [hs] at hn
  cases c with
  | none => unfold onCommentEnd; tok_ok
  | some c => unfold onCommentEnd; dsimp only; split_ifs <;> tok_ok

theorem commentEndBang_ok (S : Sink σ) (m : M σ) (c : Option Nat) (h : Pre m c) (hs : m.st = .commentEndBang) : OkR m c (onCommentEndBang S m c) := by
  have hn := h.need (by rw [hs]; rfl)
  rw [hs] at hn
  cases c with
  | none => unfold onCommentEndBang; tok_ok
  | some c => unfold onCommentEndBang; dsimp only; split_ifs <;> tok_ok

theorem doctype_ok (S : Sink σ) (m : M σ) (c : Option Nat) (h : Pre m c) (hs : m.st = .doctype) : OkR m c (onDoctype S m c) := by
  have hn := h.need (by rw [hs]; rfl)
  rw [hs] at hn
  cases c with
  | none => unfold onDoctype; tok_ok
  | some c => unfold onDoctype; dsimp only; split_ifs <;> tok_ok

theorem beforeDoctypeName_ok (S : Sink σ) (m : M σ) (c : Option Nat) (h : Pre m c) (hs : m.st = .beforeDoctypeName) : OkR m c (onBeforeDoctypeName S m c) := by
  have hn := h.need (by rw [hs]; rfl)
  rw [hs] at hn
  cases c with
  | none => unfold onBeforeDoctypeName; tok_ok
  | some c => unfold onBeforeDoctypeName; dsimp only; split_ifs <;> tok_ok

theorem doctypeName_ok (S : Sink σ) (m : M σ) (c : Option Nat) (h : Pre m c) (hs : m.st = .doctypeName) : OkR m c (onDoctypeName S m c) := by
  have hn := h.need (by rw [hs]; rfl)
  rw [hs] at hn
  cases c with
  | none => unfold onDoctypeName; tok_ok
  | some c => unfold onDoctypeName; dsimp only; split_ifs <;> tok_ok

theorem afterPublicKw_ok (S : Sink σ) (m : M σ) (c : Option Nat) (h : Pre m c) (hs : m.st = .afterPublicKw) : OkR m c (onAfterPublicKw S m c) := by
  have hn := h.need (by rw [hs]; rfl)
  rw [hs] at hn
  cases c with
  | none => unfold onAfterPublicKw; tok_ok
  | some c => unfold onAfterPublicKw; dsimp only; split_ifs <;> tok_ok

theorem beforePublicId_ok (S : Sink σ) (m : M σ) (c : Option Nat) (h : Pre m c) (hs : m.st = .beforePublicId) : OkR m c (onBeforePublicId S m c) := by
  have hn := h.need (by rw [hs]; rfl)
  rw [hs] at hn
  cases c with
  | none => unfold onBeforePublicId; tok_ok
  | some c => unfold onBeforePublicId; dsimp only; split_ifs <;> tok_ok

theorem publicIdDq_ok (S : Sink σ) (m : M σ) (c : Option Nat) (h : Pre m c) (hs : m.st = .publicIdDq) : OkR m c (onPublicId S 0x22 m c) := by
  have hn := h.need (by rw [hs]; rfl)
  rw [hs] at hn
  cases c with
  | none => unfold onPublicId; tok_ok
  | some c => unfold onPublicId; dsimp only; split_ifs <;> tok_ok

theorem publicIdSq_ok (S : Sink σ) (m : M σ) (c : Option Nat) (h : Pre m c) (hs : m.st = .publicIdSq) : OkR m c (onPublicId S 0x27 m c) := by
  have hn := h.need (by rw [hs]; rfl)
  rw [hs] at hn
  cases c with
  | none => unfold onPublicId; tok_ok
  | some c => unfold onPublicId; dsimp only; split_ifs <;> tok_ok

theorem afterPublicId_ok (S : Sink σ) (m : M σ) (c : Option Nat) (h : Pre m c) (hs : m.st = .afterPublicId) : OkR m c (onAfterPublicId S m c) := by
  have hn := h.need (by rw [hs]; rfl)
  rw [hs] at hn
  cases c with
  | none => unfold onAfterPublicId; tok_ok
  | some c => unfold onAfterPublicId; dsimp only; split_ifs <;> tok_ok

theorem betweenIds_ok (S : Sink σ) (m : M σ) (c : Option Nat) (h : Pre m c) (hs : m.st = .betweenIds) : OkR m c (onBetweenIds S m c) := by
  have hn := h.need (by rw [hs]; rfl)
  rw [hs] at hn
  cases c with
  | none => unfold onBetweenIds; tok_ok
  | some c => unfold onBetweenIds; dsimp only; split_ifs <;> tok_ok

theorem afterSystemKw_ok (S : Sink σ) (m : M σ) (c : Option Nat) (h : Pre m c) (hs : m.st = .afterSystemKw) : OkR m c (onAfterSystemKw S m c) := by
  have hn := h.need (by rw [hs]; rfl)
  rw [hs] at hn
  cases c with
  | none => unfold onAfterSystemKw; tok_ok
  | some c => unfold onAfterSystemKw; dsimp only; split_ifs <;> tok_ok

theorem beforeSystemId_ok (S : Sink σ) (m : M σ) (c : Option Nat) (h : Pre m c) (hs : m.st = .beforeSystemId) : OkR m c (onBeforeSystemId S m c) := by
  have hn := h.need (by rw [hs]; rfl)
  rw [hs] at hn
  cases c with
  | none => unfold onBeforeSystemId; tok_ok
  | some c => unfold onBeforeSystemId; dsimp only; split_ifs <;> tok_ok

theorem systemIdDq_ok (S : Sink σ) (m : M σ) (c : Option Nat) (h : Pre m c) (hs : m.st = .systemIdDq) : OkR m c (onSystemId S 0x22 m c) := by
  have hn := h.need (by rw [hs]; rfl)
  rw [hs] at hn
  cases c with
  | none => unfold onSystemId; tok_ok
  | some c => unfold onSystemId; dsimp only; split_ifs <;> tok_ok

theorem systemIdSq_ok (S : Sink σ) (m : M σ) (c : Option Nat) (h : Pre m c) (hs : m.st = .systemIdSq) : OkR m c (onSystemId S 0x27 m c) := by
  have hn := h.need (by rw [hs]; rfl)
  rw [hs] at hn
  cases c with
  | none => unfold onSystemId; tok_ok
  | some c => unfold onSystemId; dsimp only; split_ifs <;> tok_ok

theorem afterSystemId_ok (S : Sink σ) (m : M σ) (c : Option Nat) (h : Pre m c) (hs : m.st = .afterSystemId) : OkR m c (onAfterSystemId S m c) := by
  have hn := h.need (by rw [hs]; rfl)
  rw [hs] at hn
  cases c with
  | none => unfold onAfterSystemId; tok_ok
  | some c => unfold onAfterSystemId; dsimp only; split_ifs <;> tok_ok

theorem bogusDoctype_ok (S : Sink σ) (m : M σ) (c : Option Nat) (h : Pre m c) (hs : m.st = .bogusDoctype) : OkR m c (onBogusDoctype S m c) := by
  have hn := h.need (by rw [hs]; rfl)
  rw [hs] at hn
  cases c with
  | none => unfold onBogusDoctype; tok_ok
  | some c => unfold onBogusDoctype; dsimp only; split_ifs <;> tok_ok

theorem cdata_ok (S : Sink σ) (m : M σ) (c : Option Nat) (h : Pre m c) (hs : m.st = .cdata) : OkR m c (onCdata S m c) := by
  have hn := h.need (by rw [hs]; rfl)
  rw [hs] at hn
  cases c with
  | none => unfold onCdata; tok_ok
  | some c => unfold onCdata; dsimp only; split_ifs <;> tok_ok

theorem cdataBracket_ok (S : Sink σ) (m : M σ) (c : Option Nat) (h : Pre m c) (hs : m.st = .cdataBracket) : OkR m c (onCdataBracket S m c) := by
  have hn := h.need (by rw [hs]; rfl)
  rw [hs] at hn
  cases c with
  | none => unfold onCdataBracket; tok_ok
  | some c => unfold onCdataBracket; dsimp only; split_ifs <;> tok_ok

theorem cdataEnd_ok (S : Sink σ) (m : M σ) (c : Option Nat) (h : Pre m c) (hs : m.st = .cdataEnd) : OkR m c (onCdataEnd S m c) := by
  have hn := h.need (by rw [hs]; rfl)
  rw [hs] at hn
  cases c with
  | none => unfold onCdataEnd; tok_ok
  | some c => unfold onCdataEnd; dsimp only; split_ifs <;> tok_ok

end Verif.Proof.HtmlTok
