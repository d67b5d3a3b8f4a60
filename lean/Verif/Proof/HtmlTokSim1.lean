import Verif.Proof.HtmlTokSim
set_option linter.unnecessarySimpa false
/-
Steps of the model and of the standard, state by state, by computing the row of the table. Text, tags and script data.
-/
namespace Verif.Proof.HtmlTok
open Verif.Model.HtmlTok Verif.Model.HtmlInput Verif.Model.Infra
variable {σ : Type}

theorem data_sim (S : Sink σ) (m : M σ) (c : Option Nat) (x : Spec.HtmlTok.C σ) (h : Sit m c x) (hs : m.st = .data) :
    OutR S x c (onData S m c) := by
  intro m2 b hr
  have hst : x.st = .data := by rw [h.core.st, hs]; rfl
  obtain ⟨⟨h1, h2, h3, h4, h5, h6, h7, h8, h9, h10, h11, h12, h13, h14⟩, he, hh, hm⟩ := h
  have hx : ∀ n : Nat, n + 0 = n := fun _ => rfl
  have hy : ∀ n : Nat, n + 0 = n := fun _ => rfl
  unfold Spec.HtmlTok.plain
  rw [hst, hh]
  cases c with
  | none =>
    unfold onData at hr
    dsimp only at hr
    tok_sim0
  | some c =>
    unfold onData at hr
    dsimp only at hr
    split_ifs at hr <;> tok_sim1

theorem rcdata_sim (S : Sink σ) (m : M σ) (c : Option Nat) (x : Spec.HtmlTok.C σ) (h : Sit m c x) (hs : m.st = .rcdata) :
    OutR S x c (onRcdata S m c) := by
  intro m2 b hr
  have hst : x.st = .rcdata := by rw [h.core.st, hs]; rfl
  obtain ⟨⟨h1, h2, h3, h4, h5, h6, h7, h8, h9, h10, h11, h12, h13, h14⟩, he, hh, hm⟩ := h
  have hx : ∀ n : Nat, n + 0 = n := fun _ => rfl
  have hy : ∀ n : Nat, n + 0 = n := fun _ => rfl
  unfold Spec.HtmlTok.plain
  rw [hst, hh]
  cases c with
  | none =>
    unfold onRcdata at hr
    dsimp only at hr
    tok_sim0
  | some c =>
    unfold onRcdata at hr
    dsimp only at hr
    split_ifs at hr <;> tok_sim1

theorem rawtext_sim (S : Sink σ) (m : M σ) (c : Option Nat) (x : Spec.HtmlTok.C σ) (h : Sit m c x) (hs : m.st = .rawtext) :
    OutR S x c (onRawtext S .rawtextLt m c) := by
  intro m2 b hr
  have hst : x.st = .rawtext := by rw [h.core.st, hs]; rfl
  obtain ⟨⟨h1, h2, h3, h4, h5, h6, h7, h8, h9, h10, h11, h12, h13, h14⟩, he, hh, hm⟩ := h
  have hx : ∀ n : Nat, n + 0 = n := fun _ => rfl
  have hy : ∀ n : Nat, n + 0 = n := fun _ => rfl
  unfold Spec.HtmlTok.plain
  rw [hst, hh]
  cases c with
  | none =>
    unfold onRawtext at hr
    dsimp only at hr
    tok_sim0
  | some c =>
    unfold onRawtext at hr
    dsimp only at hr
    split_ifs at hr <;> tok_sim1

theorem scriptData_sim (S : Sink σ) (m : M σ) (c : Option Nat) (x : Spec.HtmlTok.C σ) (h : Sit m c x) (hs : m.st = .scriptData) :
    OutR S x c (onRawtext S .scriptLt m c) := by
  intro m2 b hr
  have hst : x.st = .scriptData := by rw [h.core.st, hs]; rfl
  obtain ⟨⟨h1, h2, h3, h4, h5, h6, h7, h8, h9, h10, h11, h12, h13, h14⟩, he, hh, hm⟩ := h
  have hx : ∀ n : Nat, n + 0 = n := fun _ => rfl
  have hy : ∀ n : Nat, n + 0 = n := fun _ => rfl
  unfold Spec.HtmlTok.plain
  rw [hst, hh]
  cases c with
  | none =>
    unfold onRawtext at hr
    dsimp only at hr
    tok_sim0
  | some c =>
    unfold onRawtext at hr
    dsimp only at hr
    split_ifs at hr <;> tok_sim1

theorem plaintext_sim (S : Sink σ) (m : M σ) (c : Option Nat) (x : Spec.HtmlTok.C σ) (h : Sit m c x) (hs : m.st = .plaintext) :
    OutR S x c (onPlaintext S m c) := by
  intro m2 b hr
  have hst : x.st = .plaintext := by rw [h.core.st, hs]; rfl
  obtain ⟨⟨h1, h2, h3, h4, h5, h6, h7, h8, h9, h10, h11, h12, h13, h14⟩, he, hh, hm⟩ := h
  have hx : ∀ n : Nat, n + 0 = n := fun _ => rfl
  have hy : ∀ n : Nat, n + 0 = n := fun _ => rfl
  unfold Spec.HtmlTok.plain
  rw [hst, hh]
  cases c with
  | none =>
    unfold onPlaintext at hr
    dsimp only at hr
    tok_sim0
  | some c =>
    unfold onPlaintext at hr
    dsimp only at hr
    split_ifs at hr <;> tok_sim1

theorem tagOpen_sim (S : Sink σ) (m : M σ) (c : Option Nat) (x : Spec.HtmlTok.C σ) (h : Sit m c x) (hs : m.st = .tagOpen) :
    OutR S x c (onTagOpen S m c) := by
  intro m2 b hr
  have hst : x.st = .tagOpen := by rw [h.core.st, hs]; rfl
  obtain ⟨⟨h1, h2, h3, h4, h5, h6, h7, h8, h9, h10, h11, h12, h13, h14⟩, he, hh, hm⟩ := h
  have hx : ∀ n : Nat, n + 0 = n := fun _ => rfl
  have hy : ∀ n : Nat, n + 0 = n := fun _ => rfl
  unfold Spec.HtmlTok.plain
  rw [hst, hh]
  cases c with
  | none =>
    unfold onTagOpen at hr
    dsimp only at hr
    tok_sim0
  | some c =>
    unfold onTagOpen at hr
    dsimp only at hr
    split_ifs at hr <;> tok_sim1

theorem endTagOpen_sim (S : Sink σ) (m : M σ) (c : Option Nat) (x : Spec.HtmlTok.C σ) (h : Sit m c x) (hs : m.st = .endTagOpen) :
    OutR S x c (onEndTagOpen S m c) := by
  intro m2 b hr
  have hst : x.st = .endTagOpen := by rw [h.core.st, hs]; rfl
  obtain ⟨⟨h1, h2, h3, h4, h5, h6, h7, h8, h9, h10, h11, h12, h13, h14⟩, he, hh, hm⟩ := h
  have hx : ∀ n : Nat, n + 0 = n := fun _ => rfl
  have hy : ∀ n : Nat, n + 0 = n := fun _ => rfl
  unfold Spec.HtmlTok.plain
  rw [hst, hh]
  cases c with
  | none =>
    unfold onEndTagOpen at hr
    dsimp only at hr
    tok_sim0
  | some c =>
    unfold onEndTagOpen at hr
    dsimp only at hr
    split_ifs at hr <;> tok_sim1

theorem tagName_sim (S : Sink σ) (hS : SwitchOk S) (m : M σ) (c : Option Nat) (x : Spec.HtmlTok.C σ) (h : Sit m c x) (hs : m.st = .tagName) :
    OutR S x c (onTagName S m c) := by
  intro m2 b hr
  have hcore := h.core
  have hst : x.st = .tagName := by rw [h.core.st, hs]; rfl
  obtain ⟨⟨h1, h2, h3, h4, h5, h6, h7, h8, h9, h10, h11, h12, h13, h14⟩, he, hh, hm⟩ := h
  have hx : ∀ n : Nat, n + 0 = n := fun _ => rfl
  have hy : ∀ n : Nat, n + 0 = n := fun _ => rfl
  unfold Spec.HtmlTok.plain
  rw [hst, hh]
  cases c with
  | none =>
    unfold onTagName at hr
    dsimp only at hr
    tok_sim0
  | some c =>
    unfold onTagName at hr
    dsimp only at hr
    split_ifs at hr
    · tok_sim1
    · tok_sim1
    · tok_emit
    · tok_name
    · tok_name
    · tok_name

theorem rcdataLt_sim (S : Sink σ) (m : M σ) (c : Option Nat) (x : Spec.HtmlTok.C σ) (h : Sit m c x) (hs : m.st = .rcdataLt) :
    OutR S x c (onRawLt S .rcdata .rcdataEndOpen m c) := by
  intro m2 b hr
  have hst : x.st = .rcdataLt := by rw [h.core.st, hs]; rfl
  obtain ⟨⟨h1, h2, h3, h4, h5, h6, h7, h8, h9, h10, h11, h12, h13, h14⟩, he, hh, hm⟩ := h
  have hx : ∀ n : Nat, n + 0 = n := fun _ => rfl
  have hy : ∀ n : Nat, n + 0 = n := fun _ => rfl
  unfold Spec.HtmlTok.plain
  rw [hst, hh]
  cases c with
  | none =>
    unfold onRawLt at hr
    dsimp only at hr
    tok_sim0
  | some c =>
    unfold onRawLt at hr
    dsimp only at hr
    split_ifs at hr <;> tok_sim1

theorem rcdataEndOpen_sim (S : Sink σ) (m : M σ) (c : Option Nat) (x : Spec.HtmlTok.C σ) (h : Sit m c x) (hs : m.st = .rcdataEndOpen) :
    OutR S x c (onRawEndOpen S .rcdata .rcdataEndName m c) := by
  intro m2 b hr
  have hst : x.st = .rcdataEndOpen := by rw [h.core.st, hs]; rfl
  obtain ⟨⟨h1, h2, h3, h4, h5, h6, h7, h8, h9, h10, h11, h12, h13, h14⟩, he, hh, hm⟩ := h
  have hx : ∀ n : Nat, n + 0 = n := fun _ => rfl
  have hy : ∀ n : Nat, n + 0 = n := fun _ => rfl
  unfold Spec.HtmlTok.plain
  rw [hst, hh]
  cases c with
  | none =>
    unfold onRawEndOpen at hr
    dsimp only at hr
    tok_sim0
  | some c =>
    unfold onRawEndOpen at hr
    dsimp only at hr
    split_ifs at hr <;> tok_sim1

theorem rawtextLt_sim (S : Sink σ) (m : M σ) (c : Option Nat) (x : Spec.HtmlTok.C σ) (h : Sit m c x) (hs : m.st = .rawtextLt) :
    OutR S x c (onRawLt S .rawtext .rawtextEndOpen m c) := by
  intro m2 b hr
  have hst : x.st = .rawtextLt := by rw [h.core.st, hs]; rfl
  obtain ⟨⟨h1, h2, h3, h4, h5, h6, h7, h8, h9, h10, h11, h12, h13, h14⟩, he, hh, hm⟩ := h
  have hx : ∀ n : Nat, n + 0 = n := fun _ => rfl
  have hy : ∀ n : Nat, n + 0 = n := fun _ => rfl
  unfold Spec.HtmlTok.plain
  rw [hst, hh]
  cases c with
  | none =>
    unfold onRawLt at hr
    dsimp only at hr
    tok_sim0
  | some c =>
    unfold onRawLt at hr
    dsimp only at hr
    split_ifs at hr <;> tok_sim1

theorem rawtextEndOpen_sim (S : Sink σ) (m : M σ) (c : Option Nat) (x : Spec.HtmlTok.C σ) (h : Sit m c x) (hs : m.st = .rawtextEndOpen) :
    OutR S x c (onRawEndOpen S .rawtext .rawtextEndName m c) := by
  intro m2 b hr
  have hst : x.st = .rawtextEndOpen := by rw [h.core.st, hs]; rfl
  obtain ⟨⟨h1, h2, h3, h4, h5, h6, h7, h8, h9, h10, h11, h12, h13, h14⟩, he, hh, hm⟩ := h
  have hx : ∀ n : Nat, n + 0 = n := fun _ => rfl
  have hy : ∀ n : Nat, n + 0 = n := fun _ => rfl
  unfold Spec.HtmlTok.plain
  rw [hst, hh]
  cases c with
  | none =>
    unfold onRawEndOpen at hr
    dsimp only at hr
    tok_sim0
  | some c =>
    unfold onRawEndOpen at hr
    dsimp only at hr
    split_ifs at hr <;> tok_sim1

theorem scriptLt_sim (S : Sink σ) (m : M σ) (c : Option Nat) (x : Spec.HtmlTok.C σ) (h : Sit m c x) (hs : m.st = .scriptLt) :
    OutR S x c (onScriptLt S m c) := by
  intro m2 b hr
  have hst : x.st = .scriptLt := by rw [h.core.st, hs]; rfl
  obtain ⟨⟨h1, h2, h3, h4, h5, h6, h7, h8, h9, h10, h11, h12, h13, h14⟩, he, hh, hm⟩ := h
  have hx : ∀ n : Nat, n + 0 = n := fun _ => rfl
  have hy : ∀ n : Nat, n + 0 = n := fun _ => rfl
  unfold Spec.HtmlTok.plain
  rw [hst, hh]
  cases c with
  | none =>
    unfold onScriptLt at hr
    dsimp only at hr
    tok_sim0
  | some c =>
    unfold onScriptLt at hr
    dsimp only at hr
    split_ifs at hr <;> tok_sim1

theorem scriptEndOpen_sim (S : Sink σ) (m : M σ) (c : Option Nat) (x : Spec.HtmlTok.C σ) (h : Sit m c x) (hs : m.st = .scriptEndOpen) :
    OutR S x c (onRawEndOpen S .scriptData .scriptEndName m c) := by
  intro m2 b hr
  have hst : x.st = .scriptEndOpen := by rw [h.core.st, hs]; rfl
  obtain ⟨⟨h1, h2, h3, h4, h5, h6, h7, h8, h9, h10, h11, h12, h13, h14⟩, he, hh, hm⟩ := h
  have hx : ∀ n : Nat, n + 0 = n := fun _ => rfl
  have hy : ∀ n : Nat, n + 0 = n := fun _ => rfl
  unfold Spec.HtmlTok.plain
  rw [hst, hh]
  cases c with
  | none =>
    unfold onRawEndOpen at hr
    dsimp only at hr
    tok_sim0
  | some c =>
    unfold onRawEndOpen at hr
    dsimp only at hr
    split_ifs at hr <;> tok_sim1

theorem scriptEscStart_sim (S : Sink σ) (m : M σ) (c : Option Nat) (x : Spec.HtmlTok.C σ) (h : Sit m c x) (hs : m.st = .scriptEscStart) :
    OutR S x c (onEscStart S .scriptEscStartDash m c) := by
  intro m2 b hr
  have hst : x.st = .scriptEscStart := by rw [h.core.st, hs]; rfl
  obtain ⟨⟨h1, h2, h3, h4, h5, h6, h7, h8, h9, h10, h11, h12, h13, h14⟩, he, hh, hm⟩ := h
  have hx : ∀ n : Nat, n + 0 = n := fun _ => rfl
  have hy : ∀ n : Nat, n + 0 = n := fun _ => rfl
  unfold Spec.HtmlTok.plain
  rw [hst, hh]
  cases c with
  | none =>
    unfold onEscStart at hr
    dsimp only at hr
    tok_sim0
  | some c =>
    unfold onEscStart at hr
    dsimp only at hr
    split_ifs at hr <;> tok_sim1

theorem scriptEscStartDash_sim (S : Sink σ) (m : M σ) (c : Option Nat) (x : Spec.HtmlTok.C σ) (h : Sit m c x) (hs : m.st = .scriptEscStartDash) :
    OutR S x c (onEscStart S .scriptEscDashDash m c) := by
  intro m2 b hr
  have hst : x.st = .scriptEscStartDash := by rw [h.core.st, hs]; rfl
  obtain ⟨⟨h1, h2, h3, h4, h5, h6, h7, h8, h9, h10, h11, h12, h13, h14⟩, he, hh, hm⟩ := h
  have hx : ∀ n : Nat, n + 0 = n := fun _ => rfl
  have hy : ∀ n : Nat, n + 0 = n := fun _ => rfl
  unfold Spec.HtmlTok.plain
  rw [hst, hh]
  cases c with
  | none =>
    unfold onEscStart at hr
    dsimp only at hr
    tok_sim0
  | some c =>
    unfold onEscStart at hr
    dsimp only at hr
    split_ifs at hr <;> tok_sim1

theorem scriptEsc_sim (S : Sink σ) (m : M σ) (c : Option Nat) (x : Spec.HtmlTok.C σ) (h : Sit m c x) (hs : m.st = .scriptEsc) :
    OutR S x c (onScriptEsc S m c) := by
  intro m2 b hr
  have hst : x.st = .scriptEsc := by rw [h.core.st, hs]; rfl
  obtain ⟨⟨h1, h2, h3, h4, h5, h6, h7, h8, h9, h10, h11, h12, h13, h14⟩, he, hh, hm⟩ := h
  have hx : ∀ n : Nat, n + 0 = n := fun _ => rfl
  have hy : ∀ n : Nat, n + 0 = n := fun _ => rfl
  unfold Spec.HtmlTok.plain
  rw [hst, hh]
  cases c with
  | none =>
    unfold onScriptEsc at hr
    dsimp only at hr
    tok_sim0
  | some c =>
    unfold onScriptEsc at hr
    dsimp only at hr
    split_ifs at hr <;> tok_sim1

theorem scriptEscDash_sim (S : Sink σ) (m : M σ) (c : Option Nat) (x : Spec.HtmlTok.C σ) (h : Sit m c x) (hs : m.st = .scriptEscDash) :
    OutR S x c (onScriptEscDash S m c) := by
  intro m2 b hr
  have hst : x.st = .scriptEscDash := by rw [h.core.st, hs]; rfl
  obtain ⟨⟨h1, h2, h3, h4, h5, h6, h7, h8, h9, h10, h11, h12, h13, h14⟩, he, hh, hm⟩ := h
  have hx : ∀ n : Nat, n + 0 = n := fun _ => rfl
  have hy : ∀ n : Nat, n + 0 = n := fun _ => rfl
  unfold Spec.HtmlTok.plain
  rw [hst, hh]
  cases c with
  | none =>
    unfold onScriptEscDash at hr
    dsimp only at hr
    tok_sim0
  | some c =>
    unfold onScriptEscDash at hr
    dsimp only at hr
    split_ifs at hr <;> tok_sim1

theorem scriptEscDashDash_sim (S : Sink σ) (m : M σ) (c : Option Nat) (x : Spec.HtmlTok.C σ) (h : Sit m c x) (hs : m.st = .scriptEscDashDash) :
    OutR S x c (onScriptEscDashDash S m c) := by
  intro m2 b hr
  have hst : x.st = .scriptEscDashDash := by rw [h.core.st, hs]; rfl
  obtain ⟨⟨h1, h2, h3, h4, h5, h6, h7, h8, h9, h10, h11, h12, h13, h14⟩, he, hh, hm⟩ := h
  have hx : ∀ n : Nat, n + 0 = n := fun _ => rfl
  have hy : ∀ n : Nat, n + 0 = n := fun _ => rfl
  unfold Spec.HtmlTok.plain
  rw [hst, hh]
  cases c with
  | none =>
    unfold onScriptEscDashDash at hr
    dsimp only at hr
    tok_sim0
  | some c =>
    unfold onScriptEscDashDash at hr
    dsimp only at hr
    split_ifs at hr <;> tok_sim1

theorem scriptEscLt_sim (S : Sink σ) (m : M σ) (c : Option Nat) (x : Spec.HtmlTok.C σ) (h : Sit m c x) (hs : m.st = .scriptEscLt) :
    OutR S x c (onScriptEscLt S m c) := by
  intro m2 b hr
  have hst : x.st = .scriptEscLt := by rw [h.core.st, hs]; rfl
  obtain ⟨⟨h1, h2, h3, h4, h5, h6, h7, h8, h9, h10, h11, h12, h13, h14⟩, he, hh, hm⟩ := h
  have hx : ∀ n : Nat, n + 0 = n := fun _ => rfl
  have hy : ∀ n : Nat, n + 0 = n := fun _ => rfl
  unfold Spec.HtmlTok.plain
  rw [hst, hh]
  cases c with
  | none =>
    unfold onScriptEscLt at hr
    dsimp only at hr
    tok_sim0
  | some c =>
    unfold onScriptEscLt at hr
    dsimp only at hr
    split_ifs at hr <;> tok_sim1

end Verif.Proof.HtmlTok
