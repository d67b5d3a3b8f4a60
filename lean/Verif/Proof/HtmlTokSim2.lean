import Verif.Proof.HtmlTokSim
set_option linter.unnecessarySimpa false
/-
Steps of the model and of the standard, state by state, by computing the row of the table. Script data, attributes, comments and document types.
-/
namespace Verif.Proof.HtmlTok
open Verif.Model.HtmlTok Verif.Model.HtmlInput Verif.Model.Infra
variable {σ : Type}

theorem scriptEscEndOpen_sim (S : Sink σ) (m : M σ) (c : Option Nat) (x : Spec.HtmlTok.C σ) (h : Sit m c x) (hs : m.st = .scriptEscEndOpen) :
    OutR S x c (onRawEndOpen S .scriptEsc .scriptEscEndName m c) := by
  intro m2 b hr
  have hst : x.st = .scriptEscEndOpen := by rw [h.core.st, hs]; rfl
  obtain ⟨⟨h1, h2, h3, h4, h5, h6, h7, h8, h9, h10, h11, h12, h13, h14⟩, he, hh, hm⟩ := h
  have hx : ∀ n : Nat, n + 0 = n := fun _ => rfl
  have hy : ∀ n : Nat, n + 0 = n := fun _ => rfl
  unfold Spec.HtmlTok.plain
  rw [hst, hh]
  cases c with
  | none =>
    unfold onRawEndOpen at hr
    dsimp only at hr
    tok_sim0
  | some c =>
    unfold onRawEndOpen at hr
    dsimp only at hr
    split_ifs at hr <;> tok_sim1

theorem scriptDbl_sim (S : Sink σ) (m : M σ) (c : Option Nat) (x : Spec.HtmlTok.C σ) (h : Sit m c x) (hs : m.st = .scriptDbl) :
    OutR S x c (onScriptDbl S m c) := by
  intro m2 b hr
  have hst : x.st = .scriptDbl := by rw [h.core.st, hs]; rfl
  obtain ⟨⟨h1, h2, h3, h4, h5, h6, h7, h8, h9, h10, h11, h12, h13, h14⟩, he, hh, hm⟩ := h
  have hx : ∀ n : Nat, n + 0 = n := fun _ => rfl
  have hy : ∀ n : Nat, n + 0 = n := fun _ => rfl
  unfold Spec.HtmlTok.plain
  rw [hst, hh]
  cases c with
  | none =>
    unfold onScriptDbl at hr
    dsimp only at hr
    tok_sim0
  | some c =>
    unfold onScriptDbl at hr
    dsimp only at hr
    split_ifs at hr <;> tok_sim1

theorem scriptDblDash_sim (S : Sink σ) (m : M σ) (c : Option Nat) (x : Spec.HtmlTok.C σ) (h : Sit m c x) (hs : m.st = .scriptDblDash) :
    OutR S x c (onScriptDblDash S m c) := by
  intro m2 b hr
  have hst : x.st = .scriptDblDash := by rw [h.core.st, hs]; rfl
  obtain ⟨⟨h1, h2, h3, h4, h5, h6, h7, h8, h9, h10, h11, h12, h13, h14⟩, he, hh, hm⟩ := h
  have hx : ∀ n : Nat, n + 0 = n := fun _ => rfl
  have hy : ∀ n : Nat, n + 0 = n := fun _ => rfl
  unfold Spec.HtmlTok.plain
  rw [hst, hh]
  cases c with
  | none =>
    unfold onScriptDblDash at hr
    dsimp only at hr
    tok_sim0
  | some c =>
    unfold onScriptDblDash at hr
    dsimp only at hr
    split_ifs at hr <;> tok_sim1

theorem scriptDblDashDash_sim (S : Sink σ) (m : M σ) (c : Option Nat) (x : Spec.HtmlTok.C σ) (h : Sit m c x) (hs : m.st = .scriptDblDashDash) :
    OutR S x c (onScriptDblDashDash S m c) := by
  intro m2 b hr
  have hst : x.st = .scriptDblDashDash := by rw [h.core.st, hs]; rfl
  obtain ⟨⟨h1, h2, h3, h4, h5, h6, h7, h8, h9, h10, h11, h12, h13, h14⟩, he, hh, hm⟩ := h
  have hx : ∀ n : Nat, n + 0 = n := fun _ => rfl
  have hy : ∀ n : Nat, n + 0 = n := fun _ => rfl
  unfold Spec.HtmlTok.plain
  rw [hst, hh]
  cases c with
  | none =>
    unfold onScriptDblDashDash at hr
    dsimp only at hr
    tok_sim0
  | some c =>
    unfold onScriptDblDashDash at hr
    dsimp only at hr
    split_ifs at hr <;> tok_sim1

theorem scriptDblLt_sim (S : Sink σ) (m : M σ) (c : Option Nat) (x : Spec.HtmlTok.C σ) (h : Sit m c x) (hs : m.st = .scriptDblLt) :
    OutR S x c (onScriptDblLt S m c) := by
  intro m2 b hr
  have hst : x.st = .scriptDblLt := by rw [h.core.st, hs]; rfl
  obtain ⟨⟨h1, h2, h3, h4, h5, h6, h7, h8, h9, h10, h11, h12, h13, h14⟩, he, hh, hm⟩ := h
  have hx : ∀ n : Nat, n + 0 = n := fun _ => rfl
  have hy : ∀ n : Nat, n + 0 = n := fun _ => rfl
  unfold Spec.HtmlTok.plain
  rw [hst, hh]
  cases c with
  | none =>
    unfold onScriptDblLt at hr
    dsimp only at hr
    tok_sim0
  | some c =>
    unfold onScriptDblLt at hr
    dsimp only at hr
    split_ifs at hr <;> tok_sim1

theorem afterAttrName_sim (S : Sink σ) (hS : SwitchOk S) (m : M σ) (c : Option Nat) (x : Spec.HtmlTok.C σ) (h : Sit m c x) (hs : m.st = .afterAttrName) :
    OutR S x c (onAfterAttrName S m c) := by
  intro m2 b hr
  have hcore := h.core
  have hst : x.st = .afterAttrName := by rw [h.core.st, hs]; rfl
  obtain ⟨⟨h1, h2, h3, h4, h5, h6, h7, h8, h9, h10, h11, h12, h13, h14⟩, he, hh, hm⟩ := h
  have hx : ∀ n : Nat, n + 0 = n := fun _ => rfl
  have hy : ∀ n : Nat, n + 0 = n := fun _ => rfl
  unfold Spec.HtmlTok.plain
  rw [hst, hh]
  cases c with
  | none =>
    unfold onAfterAttrName at hr
    dsimp only at hr
    tok_sim0
  | some c =>
    unfold onAfterAttrName at hr
    dsimp only at hr
    split_ifs at hr
    · tok_sim1
    · tok_sim1
    · tok_sim1
    · tok_emit
    · tok_newAttr

theorem beforeAttrValue_sim (S : Sink σ) (hS : SwitchOk S) (m : M σ) (c : Option Nat) (x : Spec.HtmlTok.C σ) (h : Sit m c x) (hs : m.st = .beforeAttrValue) :
    OutR S x c (onBeforeAttrValue S m c) := by
  intro m2 b hr
  have hcore := h.core
  have hst : x.st = .beforeAttrValue := by rw [h.core.st, hs]; rfl
  obtain ⟨⟨h1, h2, h3, h4, h5, h6, h7, h8, h9, h10, h11, h12, h13, h14⟩, he, hh, hm⟩ := h
  have hx : ∀ n : Nat, n + 0 = n := fun _ => rfl
  have hy : ∀ n : Nat, n + 0 = n := fun _ => rfl
  unfold Spec.HtmlTok.plain
  rw [hst, hh]
  cases c with
  | none =>
    unfold onBeforeAttrValue at hr
    dsimp only at hr
    tok_sim0
  | some c =>
    unfold onBeforeAttrValue at hr
    dsimp only at hr
    split_ifs at hr
    · tok_sim1
    · tok_sim1
    · tok_sim1
    · tok_emit
    · tok_sim1

theorem attrValueDq_sim (S : Sink σ) (m : M σ) (c : Option Nat) (x : Spec.HtmlTok.C σ) (h : Sit m c x) (hs : m.st = .attrValueDq) :
    OutR S x c (onAttrValueQ S 0x22 .attrValueDq m c) := by
  intro m2 b hr
  have hst : x.st = .attrValueDq := by rw [h.core.st, hs]; rfl
  obtain ⟨⟨h1, h2, h3, h4, h5, h6, h7, h8, h9, h10, h11, h12, h13, h14⟩, he, hh, hm⟩ := h
  have hx : ∀ n : Nat, n + 0 = n := fun _ => rfl
  have hy : ∀ n : Nat, n + 0 = n := fun _ => rfl
  unfold Spec.HtmlTok.plain
  rw [hst, hh]
  cases c with
  | none =>
    unfold onAttrValueQ at hr
    dsimp only at hr
    tok_sim0
  | some c =>
    unfold onAttrValueQ at hr
    dsimp only at hr
    split_ifs at hr
    · tok_sim1
    · tok_sim1
    · tok_attr
    · tok_attr

theorem attrValueSq_sim (S : Sink σ) (m : M σ) (c : Option Nat) (x : Spec.HtmlTok.C σ) (h : Sit m c x) (hs : m.st = .attrValueSq) :
    OutR S x c (onAttrValueQ S 0x27 .attrValueSq m c) := by
  intro m2 b hr
  have hst : x.st = .attrValueSq := by rw [h.core.st, hs]; rfl
  obtain ⟨⟨h1, h2, h3, h4, h5, h6, h7, h8, h9, h10, h11, h12, h13, h14⟩, he, hh, hm⟩ := h
  have hx : ∀ n : Nat, n + 0 = n := fun _ => rfl
  have hy : ∀ n : Nat, n + 0 = n := fun _ => rfl
  unfold Spec.HtmlTok.plain
  rw [hst, hh]
  cases c with
  | none =>
    unfold onAttrValueQ at hr
    dsimp only at hr
    tok_sim0
  | some c =>
    unfold onAttrValueQ at hr
    dsimp only at hr
    split_ifs at hr
    · tok_sim1
    · tok_sim1
    · tok_attr
    · tok_attr

theorem attrValueUq_sim (S : Sink σ) (hS : SwitchOk S) (m : M σ) (c : Option Nat) (x : Spec.HtmlTok.C σ) (h : Sit m c x) (hs : m.st = .attrValueUq) :
    OutR S x c (onAttrValueUq S m c) := by
  intro m2 b hr
  have hcore := h.core
  have hst : x.st = .attrValueUq := by rw [h.core.st, hs]; rfl
  obtain ⟨⟨h1, h2, h3, h4, h5, h6, h7, h8, h9, h10, h11, h12, h13, h14⟩, he, hh, hm⟩ := h
  have hx : ∀ n : Nat, n + 0 = n := fun _ => rfl
  have hy : ∀ n : Nat, n + 0 = n := fun _ => rfl
  unfold Spec.HtmlTok.plain
  rw [hst, hh]
  cases c with
  | none =>
    unfold onAttrValueUq at hr
    dsimp only at hr
    tok_sim0
  | some c =>
    unfold onAttrValueUq at hr
    dsimp only at hr
    split_ifs at hr
    · tok_sim1
    · tok_sim1
    · tok_emit
    · tok_attr
    · tok_attr

theorem afterAttrValue_sim (S : Sink σ) (hS : SwitchOk S) (m : M σ) (c : Option Nat) (x : Spec.HtmlTok.C σ) (h : Sit m c x) (hs : m.st = .afterAttrValue) :
    OutR S x c (onAfterAttrValue S m c) := by
  intro m2 b hr
  have hcore := h.core
  have hst : x.st = .afterAttrValue := by rw [h.core.st, hs]; rfl
  obtain ⟨⟨h1, h2, h3, h4, h5, h6, h7, h8, h9, h10, h11, h12, h13, h14⟩, he, hh, hm⟩ := h
  have hx : ∀ n : Nat, n + 0 = n := fun _ => rfl
  have hy : ∀ n : Nat, n + 0 = n := fun _ => rfl
  unfold Spec.HtmlTok.plain
  rw [hst, hh]
  cases c with
  | none =>
    unfold onAfterAttrValue at hr
    dsimp only at hr
    tok_sim0
  | some c =>
    unfold onAfterAttrValue at hr
    dsimp only at hr
    split_ifs at hr
    · tok_sim1
    · tok_sim1
    · tok_emit
    · tok_sim1

theorem bogusComment_sim (S : Sink σ) (m : M σ) (c : Option Nat) (x : Spec.HtmlTok.C σ) (h : Sit m c x) (hs : m.st = .bogusComment) :
    OutR S x c (onBogusComment S m c) := by
  intro m2 b hr
  have hst : x.st = .bogusComment := by rw [h.core.st, hs]; rfl
  obtain ⟨⟨h1, h2, h3, h4, h5, h6, h7, h8, h9, h10, h11, h12, h13, h14⟩, he, hh, hm⟩ := h
  have hx : ∀ n : Nat, n + 0 = n := fun _ => rfl
  have hy : ∀ n : Nat, n + 0 = n := fun _ => rfl
  unfold Spec.HtmlTok.plain
  rw [hst, hh]
  cases c with
  | none =>
    unfold onBogusComment at hr
    dsimp only at hr
    tok_sim0
  | some c =>
    unfold onBogusComment at hr
    dsimp only at hr
    split_ifs at hr <;> tok_sim1

theorem commentStart_sim (S : Sink σ) (m : M σ) (c : Option Nat) (x : Spec.HtmlTok.C σ) (h : Sit m c x) (hs : m.st = .commentStart) :
    OutR S x c (onCommentStart S m c) := by
  intro m2 b hr
  have hst : x.st = .commentStart := by rw [h.core.st, hs]; rfl
  obtain ⟨⟨h1, h2, h3, h4, h5, h6, h7, h8, h9, h10, h11, h12, h13, h14⟩, he, hh, hm⟩ := h
  have hx : ∀ n : Nat, n + 0 = n := fun _ => rfl
  have hy : ∀ n : Nat, n + 0 = n := fun _ => rfl
  unfold Spec.HtmlTok.plain
  rw [hst, hh]
  cases c with
  | none =>
    unfold onCommentStart at hr
    dsimp only at hr
    tok_sim0
  | some c =>
    unfold onCommentStart at hr
    dsimp only at hr
    split_ifs at hr <;> tok_sim1

theorem commentStartDash_sim (S : Sink σ) (m : M σ) (c : Option Nat) (x : Spec.HtmlTok.C σ) (h : Sit m c x) (hs : m.st = .commentStartDash) :
    OutR S x c (onCommentStartDash S m c) := by
  intro m2 b hr
  have hst : x.st = .commentStartDash := by rw [h.core.st, hs]; rfl
  obtain ⟨⟨h1, h2, h3, h4, h5, h6, h7, h8, h9, h10, h11, h12, h13, h14⟩, he, hh, hm⟩ := h
  have hx : ∀ n : Nat, n + 0 = n := fun _ => rfl
  have hy : ∀ n : Nat, n + 0 = n := fun _ => rfl
  unfold Spec.HtmlTok.plain
  rw [hst, hh]
  cases c with
  | none =>
    unfold onCommentStartDash at hr
    dsimp only at hr
    tok_sim0
  | some c =>
    unfold onCommentStartDash at hr
    dsimp only at hr
    split_ifs at hr <;> tok_sim1

theorem commentLt_sim (S : Sink σ) (m : M σ) (c : Option Nat) (x : Spec.HtmlTok.C σ) (h : Sit m c x) (hs : m.st = .commentLt) :
    OutR S x c (onCommentLt m c) := by
  intro m2 b hr
  have hst : x.st = .commentLt := by rw [h.core.st, hs]; rfl
  obtain ⟨⟨h1, h2, h3, h4, h5, h6, h7, h8, h9, h10, h11, h12, h13, h14⟩, he, hh, hm⟩ := h
  have hx : ∀ n : Nat, n + 0 = n := fun _ => rfl
  have hy : ∀ n : Nat, n + 0 = n := fun _ => rfl
  unfold Spec.HtmlTok.plain
  rw [hst, hh]
  cases c with
  | none =>
    unfold onCommentLt at hr
    dsimp only at hr
    tok_sim0
  | some c =>
    unfold onCommentLt at hr
    dsimp only at hr
    split_ifs at hr <;> tok_sim1

theorem commentLtBang_sim (S : Sink σ) (m : M σ) (c : Option Nat) (x : Spec.HtmlTok.C σ) (h : Sit m c x) (hs : m.st = .commentLtBang) :
    OutR S x c (onCommentBang .commentLtBangDash .comment m c) := by
  intro m2 b hr
  have hst : x.st = .commentLtBang := by rw [h.core.st, hs]; rfl
  obtain ⟨⟨h1, h2, h3, h4, h5, h6, h7, h8, h9, h10, h11, h12, h13, h14⟩, he, hh, hm⟩ := h
  have hx : ∀ n : Nat, n + 0 = n := fun _ => rfl
  have hy : ∀ n : Nat, n + 0 = n := fun _ => rfl
  unfold Spec.HtmlTok.plain
  rw [hst, hh]
  cases c with
  | none =>
    unfold onCommentBang at hr
    dsimp only at hr
    tok_sim0
  | some c =>
    unfold onCommentBang at hr
    dsimp only at hr
    split_ifs at hr <;> tok_sim1

theorem commentLtBangDash_sim (S : Sink σ) (m : M σ) (c : Option Nat) (x : Spec.HtmlTok.C σ) (h : Sit m c x) (hs : m.st = .commentLtBangDash) :
    OutR S x c (onCommentBang .commentLtBangDashDash .commentEndDash m c) := by
  intro m2 b hr
  have hst : x.st = .commentLtBangDash := by rw [h.core.st, hs]; rfl
  obtain ⟨⟨h1, h2, h3, h4, h5, h6, h7, h8, h9, h10, h11, h12, h13, h14⟩, he, hh, hm⟩ := h
  have hx : ∀ n : Nat, n + 0 = n := fun _ => rfl
  have hy : ∀ n : Nat, n + 0 = n := fun _ => rfl
  unfold Spec.HtmlTok.plain
  rw [hst, hh]
  cases c with
  | none =>
    unfold onCommentBang at hr
    dsimp only at hr
    tok_sim0
  | some c =>
    unfold onCommentBang at hr
    dsimp only at hr
    split_ifs at hr <;> tok_sim1

theorem commentLtBangDashDash_sim (S : Sink σ) (m : M σ) (c : Option Nat) (x : Spec.HtmlTok.C σ) (h : Sit m c x) (hs : m.st = .commentLtBangDashDash) :
    OutR S x c (onCommentBangDashDash m c) := by
  intro m2 b hr
  have hst : x.st = .commentLtBangDashDash := by rw [h.core.st, hs]; rfl
  obtain ⟨⟨h1, h2, h3, h4, h5, h6, h7, h8, h9, h10, h11, h12, h13, h14⟩, he, hh, hm⟩ := h
  have hx : ∀ n : Nat, n + 0 = n := fun _ => rfl
  have hy : ∀ n : Nat, n + 0 = n := fun _ => rfl
  unfold Spec.HtmlTok.plain
  rw [hst, hh]
  cases c with
  | none =>
    unfold onCommentBangDashDash at hr
    dsimp only at hr
    tok_sim0
  | some c =>
    unfold onCommentBangDashDash at hr
    dsimp only at hr
    split_ifs at hr <;> tok_sim1

theorem commentEndDash_sim (S : Sink σ) (m : M σ) (c : Option Nat) (x : Spec.HtmlTok.C σ) (h : Sit m c x) (hs : m.st = .commentEndDash) :
    OutR S x c (onCommentEndDash S m c) := by
  intro m2 b hr
  have hst : x.st = .commentEndDash := by rw [h.core.st, hs]; rfl
  obtain ⟨⟨h1, h2, h3, h4, h5, h6, h7, h8, h9, h10, h11, h12, h13, h14⟩, he, hh, hm⟩ := h
  have hx : ∀ n : Nat, n + 0 = n := fun _ => rfl
  have hy : ∀ n : Nat, n + 0 = n := fun _ => rfl
  unfold Spec.HtmlTok.plain
  rw [hst, hh]
  cases c with
  | none =>
    unfold onCommentEndDash at hr
    dsimp only at hr
    tok_sim0
  | some c =>
    unfold onCommentEndDash at hr
    dsimp only at hr
    split_ifs at hr <;> tok_sim1

theorem commentEnd_sim (S : Sink σ) (m : M σ) (c : Option Nat) (x : Spec.HtmlTok.C σ) (h : Sit m c x) (hs : m.st = .commentEnd) :
    OutR S x c (onCommentEnd S m c) := by
  intro m2 b hr
  have hst : x.st = .commentEnd := by rw [h.core.st, hs]; rfl
  obtain ⟨⟨h1, h2, h3, h4, h5, h6, h7, h8, h9, h10, h11, h12, h13, h14⟩, he, hh, hm⟩ := h
  have hx : ∀ n : Nat, n + 0 = n := fun _ => rfl
  have hy : ∀ n : Nat, n + 0 = n := fun _ => rfl
  unfold Spec.HtmlTok.plain
  rw [hst, hh]
  cases c with
  | none =>
    unfold onCommentEnd at hr
    dsimp only at hr
    tok_sim0
  | some c =>
    unfold onCommentEnd at hr
    dsimp only at hr
    split_ifs at hr <;> tok_sim1

end Verif.Proof.HtmlTok
