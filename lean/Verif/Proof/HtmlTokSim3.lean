import Verif.Proof.HtmlTokSim
set_option linter.unnecessarySimpa false
/-
Steps of the model and of the standard, state by state, by computing the row of the table. Document types, CDATA sections and character references.
-/
namespace Verif.Proof.HtmlTok
open Verif.Model.HtmlTok Verif.Model.HtmlInput Verif.Model.Infra
variable {σ : Type}

theorem commentEndBang_sim (S : Sink σ) (m : M σ) (c : Option Nat) (x : Spec.HtmlTok.C σ) (h : Sit m c x) (hs : m.st = .commentEndBang) :
    OutR S x c (onCommentEndBang S m c) := by
  intro m2 b hr
  have hst : x.st = .commentEndBang := by rw [h.core.st, hs]; rfl
  obtain ⟨⟨h1, h2, h3, h4, h5, h6, h7, h8, h9, h10, h11, h12, h13, h14⟩, he, hh, hm⟩ := h
  have hx : ∀ n : Nat, n + 0 = n := fun _ => rfl
  have hy : ∀ n : Nat, n + 0 = n := fun _ => rfl
  unfold Spec.HtmlTok.plain
  rw [hst, hh]
  cases c with
  | none =>
    unfold onCommentEndBang at hr
    dsimp only at hr
    tok_sim0
  | some c =>
    unfold onCommentEndBang at hr
    dsimp only at hr
    split_ifs at hr <;> tok_sim1

theorem doctype_sim (S : Sink σ) (m : M σ) (c : Option Nat) (x : Spec.HtmlTok.C σ) (h : Sit m c x) (hs : m.st = .doctype) :
    OutR S x c (onDoctype S m c) := by
  intro m2 b hr
  have hst : x.st = .doctype := by rw [h.core.st, hs]; rfl
  obtain ⟨⟨h1, h2, h3, h4, h5, h6, h7, h8, h9, h10, h11, h12, h13, h14⟩, he, hh, hm⟩ := h
  have hx : ∀ n : Nat, n + 0 = n := fun _ => rfl
  have hy : ∀ n : Nat, n + 0 = n := fun _ => rfl
  unfold Spec.HtmlTok.plain
  rw [hst, hh]
  cases c with
  | none =>
    unfold onDoctype at hr
    dsimp only at hr
    tok_sim0
  | some c =>
    unfold onDoctype at hr
    dsimp only at hr
    split_ifs at hr <;> tok_sim1

theorem beforeDoctypeName_sim (S : Sink σ) (m : M σ) (c : Option Nat) (x : Spec.HtmlTok.C σ) (h : Sit m c x) (hs : m.st = .beforeDoctypeName) :
    OutR S x c (onBeforeDoctypeName S m c) := by
  intro m2 b hr
  have hst : x.st = .beforeDoctypeName := by rw [h.core.st, hs]; rfl
  obtain ⟨⟨h1, h2, h3, h4, h5, h6, h7, h8, h9, h10, h11, h12, h13, h14⟩, he, hh, hm⟩ := h
  have hx : ∀ n : Nat, n + 0 = n := fun _ => rfl
  have hy : ∀ n : Nat, n + 0 = n := fun _ => rfl
  unfold Spec.HtmlTok.plain
  rw [hst, hh]
  cases c with
  | none =>
    unfold onBeforeDoctypeName at hr
    dsimp only at hr
    tok_sim0
  | some c =>
    unfold onBeforeDoctypeName at hr
    dsimp only at hr
    split_ifs at hr <;> tok_sim1

theorem doctypeName_sim (S : Sink σ) (m : M σ) (c : Option Nat) (x : Spec.HtmlTok.C σ) (h : Sit m c x) (hs : m.st = .doctypeName) :
    OutR S x c (onDoctypeName S m c) := by
  intro m2 b hr
  have hst : x.st = .doctypeName := by rw [h.core.st, hs]; rfl
  obtain ⟨⟨h1, h2, h3, h4, h5, h6, h7, h8, h9, h10, h11, h12, h13, h14⟩, he, hh, hm⟩ := h
  have hx : ∀ n : Nat, n + 0 = n := fun _ => rfl
  have hy : ∀ n : Nat, n + 0 = n := fun _ => rfl
  unfold Spec.HtmlTok.plain
  rw [hst, hh]
  cases c with
  | none =>
    unfold onDoctypeName at hr
    dsimp only at hr
    tok_sim0
  | some c =>
    unfold onDoctypeName at hr
    dsimp only at hr
    split_ifs at hr <;> tok_sim1

theorem afterPublicKw_sim (S : Sink σ) (m : M σ) (c : Option Nat) (x : Spec.HtmlTok.C σ) (h : Sit m c x) (hs : m.st = .afterPublicKw) :
    OutR S x c (onAfterPublicKw S m c) := by
  intro m2 b hr
  have hst : x.st = .afterPublicKw := by rw [h.core.st, hs]; rfl
  obtain ⟨⟨h1, h2, h3, h4, h5, h6, h7, h8, h9, h10, h11, h12, h13, h14⟩, he, hh, hm⟩ := h
  have hx : ∀ n : Nat, n + 0 = n := fun _ => rfl
  have hy : ∀ n : Nat, n + 0 = n := fun _ => rfl
  unfold Spec.HtmlTok.plain
  rw [hst, hh]
  cases c with
  | none =>
    unfold onAfterPublicKw at hr
    dsimp only at hr
    tok_sim0
  | some c =>
    unfold onAfterPublicKw at hr
    dsimp only at hr
    split_ifs at hr <;> tok_sim1

theorem beforePublicId_sim (S : Sink σ) (m : M σ) (c : Option Nat) (x : Spec.HtmlTok.C σ) (h : Sit m c x) (hs : m.st = .beforePublicId) :
    OutR S x c (onBeforePublicId S m c) := by
  intro m2 b hr
  have hst : x.st = .beforePublicId := by rw [h.core.st, hs]; rfl
  obtain ⟨⟨h1, h2, h3, h4, h5, h6, h7, h8, h9, h10, h11, h12, h13, h14⟩, he, hh, hm⟩ := h
  have hx : ∀ n : Nat, n + 0 = n := fun _ => rfl
  have hy : ∀ n : Nat, n + 0 = n := fun _ => rfl
  unfold Spec.HtmlTok.plain
  rw [hst, hh]
  cases c with
  | none =>
    unfold onBeforePublicId at hr
    dsimp only at hr
    tok_sim0
  | some c =>
    unfold onBeforePublicId at hr
    dsimp only at hr
    split_ifs at hr <;> tok_sim1

theorem publicIdDq_sim (S : Sink σ) (m : M σ) (c : Option Nat) (x : Spec.HtmlTok.C σ) (h : Sit m c x) (hs : m.st = .publicIdDq) :
    OutR S x c (onPublicId S 0x22 m c) := by
  intro m2 b hr
  have hst : x.st = .publicIdDq := by rw [h.core.st, hs]; rfl
  obtain ⟨⟨h1, h2, h3, h4, h5, h6, h7, h8, h9, h10, h11, h12, h13, h14⟩, he, hh, hm⟩ := h
  have hx : ∀ n : Nat, n + 0 = n := fun _ => rfl
  obtain ⟨p, hy⟩ := Option.isSome_iff_exists.mp (h13 (by simp [hs]))
  rw [hy, Option.getD_some] at h5
  unfold Spec.HtmlTok.plain
  rw [hst, hh]
  cases c with
  | none =>
    unfold onPublicId at hr
    dsimp only at hr
    tok_sim0
  | some c =>
    unfold onPublicId at hr
    dsimp only at hr
    split_ifs at hr <;> tok_sim1

theorem publicIdSq_sim (S : Sink σ) (m : M σ) (c : Option Nat) (x : Spec.HtmlTok.C σ) (h : Sit m c x) (hs : m.st = .publicIdSq) :
    OutR S x c (onPublicId S 0x27 m c) := by
  intro m2 b hr
  have hst : x.st = .publicIdSq := by rw [h.core.st, hs]; rfl
  obtain ⟨⟨h1, h2, h3, h4, h5, h6, h7, h8, h9, h10, h11, h12, h13, h14⟩, he, hh, hm⟩ := h
  have hx : ∀ n : Nat, n + 0 = n := fun _ => rfl
  obtain ⟨p, hy⟩ := Option.isSome_iff_exists.mp (h13 (by simp [hs]))
  rw [hy, Option.getD_some] at h5
  unfold Spec.HtmlTok.plain
  rw [hst, hh]
  cases c with
  | none =>
    unfold onPublicId at hr
    dsimp only at hr
    tok_sim0
  | some c =>
    unfold onPublicId at hr
    dsimp only at hr
    split_ifs at hr <;> tok_sim1

theorem afterPublicId_sim (S : Sink σ) (m : M σ) (c : Option Nat) (x : Spec.HtmlTok.C σ) (h : Sit m c x) (hs : m.st = .afterPublicId) :
    OutR S x c (onAfterPublicId S m c) := by
  intro m2 b hr
  have hst : x.st = .afterPublicId := by rw [h.core.st, hs]; rfl
  obtain ⟨⟨h1, h2, h3, h4, h5, h6, h7, h8, h9, h10, h11, h12, h13, h14⟩, he, hh, hm⟩ := h
  have hx : ∀ n : Nat, n + 0 = n := fun _ => rfl
  have hy : ∀ n : Nat, n + 0 = n := fun _ => rfl
  unfold Spec.HtmlTok.plain
  rw [hst, hh]
  cases c with
  | none =>
    unfold onAfterPublicId at hr
    dsimp only at hr
    tok_sim0
  | some c =>
    unfold onAfterPublicId at hr
    dsimp only at hr
    split_ifs at hr <;> tok_sim1

theorem betweenIds_sim (S : Sink σ) (m : M σ) (c : Option Nat) (x : Spec.HtmlTok.C σ) (h : Sit m c x) (hs : m.st = .betweenIds) :
    OutR S x c (onBetweenIds S m c) := by
  intro m2 b hr
  have hst : x.st = .betweenIds := by rw [h.core.st, hs]; rfl
  obtain ⟨⟨h1, h2, h3, h4, h5, h6, h7, h8, h9, h10, h11, h12, h13, h14⟩, he, hh, hm⟩ := h
  have hx : ∀ n : Nat, n + 0 = n := fun _ => rfl
  have hy : ∀ n : Nat, n + 0 = n := fun _ => rfl
  unfold Spec.HtmlTok.plain
  rw [hst, hh]
  cases c with
  | none =>
    unfold onBetweenIds at hr
    dsimp only at hr
    tok_sim0
  | some c =>
    unfold onBetweenIds at hr
    dsimp only at hr
    split_ifs at hr <;> tok_sim1

theorem afterSystemKw_sim (S : Sink σ) (m : M σ) (c : Option Nat) (x : Spec.HtmlTok.C σ) (h : Sit m c x) (hs : m.st = .afterSystemKw) :
    OutR S x c (onAfterSystemKw S m c) := by
  intro m2 b hr
  have hst : x.st = .afterSystemKw := by rw [h.core.st, hs]; rfl
  obtain ⟨⟨h1, h2, h3, h4, h5, h6, h7, h8, h9, h10, h11, h12, h13, h14⟩, he, hh, hm⟩ := h
  have hx : ∀ n : Nat, n + 0 = n := fun _ => rfl
  have hy : ∀ n : Nat, n + 0 = n := fun _ => rfl
  unfold Spec.HtmlTok.plain
  rw [hst, hh]
  cases c with
  | none =>
    unfold onAfterSystemKw at hr
    dsimp only at hr
    tok_sim0
  | some c =>
    unfold onAfterSystemKw at hr
    dsimp only at hr
    split_ifs at hr <;> tok_sim1

theorem beforeSystemId_sim (S : Sink σ) (m : M σ) (c : Option Nat) (x : Spec.HtmlTok.C σ) (h : Sit m c x) (hs : m.st = .beforeSystemId) :
    OutR S x c (onBeforeSystemId S m c) := by
  intro m2 b hr
  have hst : x.st = .beforeSystemId := by rw [h.core.st, hs]; rfl
  obtain ⟨⟨h1, h2, h3, h4, h5, h6, h7, h8, h9, h10, h11, h12, h13, h14⟩, he, hh, hm⟩ := h
  have hx : ∀ n : Nat, n + 0 = n := fun _ => rfl
  have hy : ∀ n : Nat, n + 0 = n := fun _ => rfl
  unfold Spec.HtmlTok.plain
  rw [hst, hh]
  cases c with
  | none =>
    unfold onBeforeSystemId at hr
    dsimp only at hr
    tok_sim0
  | some c =>
    unfold onBeforeSystemId at hr
    dsimp only at hr
    split_ifs at hr <;> tok_sim1

theorem systemIdDq_sim (S : Sink σ) (m : M σ) (c : Option Nat) (x : Spec.HtmlTok.C σ) (h : Sit m c x) (hs : m.st = .systemIdDq) :
    OutR S x c (onSystemId S 0x22 m c) := by
  intro m2 b hr
  have hst : x.st = .systemIdDq := by rw [h.core.st, hs]; rfl
  obtain ⟨⟨h1, h2, h3, h4, h5, h6, h7, h8, h9, h10, h11, h12, h13, h14⟩, he, hh, hm⟩ := h
  have hx : ∀ n : Nat, n + 0 = n := fun _ => rfl
  obtain ⟨p, hy⟩ := Option.isSome_iff_exists.mp (h14 (by simp [hs]))
  rw [hy, Option.getD_some] at h6
  unfold Spec.HtmlTok.plain
  rw [hst, hh]
  cases c with
  | none =>
    unfold onSystemId at hr
    dsimp only at hr
    tok_sim0
  | some c =>
    unfold onSystemId at hr
    dsimp only at hr
    split_ifs at hr <;> tok_sim1

theorem systemIdSq_sim (S : Sink σ) (m : M σ) (c : Option Nat) (x : Spec.HtmlTok.C σ) (h : Sit m c x) (hs : m.st = .systemIdSq) :
    OutR S x c (onSystemId S 0x27 m c) := by
  intro m2 b hr
  have hst : x.st = .systemIdSq := by rw [h.core.st, hs]; rfl
  obtain ⟨⟨h1, h2, h3, h4, h5, h6, h7, h8, h9, h10, h11, h12, h13, h14⟩, he, hh, hm⟩ := h
  have hx : ∀ n : Nat, n + 0 = n := fun _ => rfl
  obtain ⟨p, hy⟩ := Option.isSome_iff_exists.mp (h14 (by simp [hs]))
  rw [hy, Option.getD_some] at h6
  unfold Spec.HtmlTok.plain
  rw [hst, hh]
  cases c with
  | none =>
    unfold onSystemId at hr
    dsimp only at hr
    tok_sim0
  | some c =>
    unfold onSystemId at hr
    dsimp only at hr
    split_ifs at hr <;> tok_sim1

theorem afterSystemId_sim (S : Sink σ) (m : M σ) (c : Option Nat) (x : Spec.HtmlTok.C σ) (h : Sit m c x) (hs : m.st = .afterSystemId) :
    OutR S x c (onAfterSystemId S m c) := by
  intro m2 b hr
  have hst : x.st = .afterSystemId := by rw [h.core.st, hs]; rfl
  obtain ⟨⟨h1, h2, h3, h4, h5, h6, h7, h8, h9, h10, h11, h12, h13, h14⟩, he, hh, hm⟩ := h
  have hx : ∀ n : Nat, n + 0 = n := fun _ => rfl
  have hy : ∀ n : Nat, n + 0 = n := fun _ => rfl
  unfold Spec.HtmlTok.plain
  rw [hst, hh]
  cases c with
  | none =>
    unfold onAfterSystemId at hr
    dsimp only at hr
    tok_sim0
  | some c =>
    unfold onAfterSystemId at hr
    dsimp only at hr
    split_ifs at hr <;> tok_sim1

theorem bogusDoctype_sim (S : Sink σ) (m : M σ) (c : Option Nat) (x : Spec.HtmlTok.C σ) (h : Sit m c x) (hs : m.st = .bogusDoctype) :
    OutR S x c (onBogusDoctype S m c) := by
  intro m2 b hr
  have hst : x.st = .bogusDoctype := by rw [h.core.st, hs]; rfl
  obtain ⟨⟨h1, h2, h3, h4, h5, h6, h7, h8, h9, h10, h11, h12, h13, h14⟩, he, hh, hm⟩ := h
  have hx : ∀ n : Nat, n + 0 = n := fun _ => rfl
  have hy : ∀ n : Nat, n + 0 = n := fun _ => rfl
  unfold Spec.HtmlTok.plain
  rw [hst, hh]
  cases c with
  | none =>
    unfold onBogusDoctype at hr
    dsimp only at hr
    tok_sim0
  | some c =>
    unfold onBogusDoctype at hr
    dsimp only at hr
    split_ifs at hr <;> tok_sim1

theorem cdata_sim (S : Sink σ) (m : M σ) (c : Option Nat) (x : Spec.HtmlTok.C σ) (h : Sit m c x) (hs : m.st = .cdata) :
    OutR S x c (onCdata S m c) := by
  intro m2 b hr
  have hst : x.st = .cdata := by rw [h.core.st, hs]; rfl
  obtain ⟨⟨h1, h2, h3, h4, h5, h6, h7, h8, h9, h10, h11, h12, h13, h14⟩, he, hh, hm⟩ := h
  have hx : ∀ n : Nat, n + 0 = n := fun _ => rfl
  have hy : ∀ n : Nat, n + 0 = n := fun _ => rfl
  unfold Spec.HtmlTok.plain
  rw [hst, hh]
  cases c with
  | none =>
    unfold onCdata at hr
    dsimp only at hr
    tok_sim0
  | some c =>
    unfold onCdata at hr
    dsimp only at hr
    split_ifs at hr <;> tok_sim1

theorem cdataBracket_sim (S : Sink σ) (m : M σ) (c : Option Nat) (x : Spec.HtmlTok.C σ) (h : Sit m c x) (hs : m.st = .cdataBracket) :
    OutR S x c (onCdataBracket S m c) := by
  intro m2 b hr
  have hst : x.st = .cdataBracket := by rw [h.core.st, hs]; rfl
  obtain ⟨⟨h1, h2, h3, h4, h5, h6, h7, h8, h9, h10, h11, h12, h13, h14⟩, he, hh, hm⟩ := h
  have hx : ∀ n : Nat, n + 0 = n := fun _ => rfl
  have hy : ∀ n : Nat, n + 0 = n := fun _ => rfl
  unfold Spec.HtmlTok.plain
  rw [hst, hh]
  cases c with
  | none =>
    unfold onCdataBracket at hr
    dsimp only at hr
    tok_sim0
  | some c =>
    unfold onCdataBracket at hr
    dsimp only at hr
    split_ifs at hr <;> tok_sim1

theorem cdataEnd_sim (S : Sink σ) (m : M σ) (c : Option Nat) (x : Spec.HtmlTok.C σ) (h : Sit m c x) (hs : m.st = .cdataEnd) :
    OutR S x c (onCdataEnd S m c) := by
  intro m2 b hr
  have hst : x.st = .cdataEnd := by rw [h.core.st, hs]; rfl
  obtain ⟨⟨h1, h2, h3, h4, h5, h6, h7, h8, h9, h10, h11, h12, h13, h14⟩, he, hh, hm⟩ := h
  have hx : ∀ n : Nat, n + 0 = n := fun _ => rfl
  have hy : ∀ n : Nat, n + 0 = n := fun _ => rfl
  unfold Spec.HtmlTok.plain
  rw [hst, hh]
  cases c with
  | none =>
    unfold onCdataEnd at hr
    dsimp only at hr
    tok_sim0
  | some c =>
    unfold onCdataEnd at hr
    dsimp only at hr
    split_ifs at hr <;> tok_sim1

theorem numericRef_sim (S : Sink σ) (m : M σ) (c : Option Nat) (x : Spec.HtmlTok.C σ) (h : Sit m c x) (hs : m.st = .numericRef) :
    OutR S x c (onNumericRef m c) := by
  intro m2 b hr
  have hst : x.st = .numericRef := by rw [h.core.st, hs]; rfl
  obtain ⟨⟨h1, h2, h3, h4, h5, h6, h7, h8, h9, h10, h11, h12, h13, h14⟩, he, hh, hm⟩ := h
  have hx : ∀ n : Nat, n + 0 = n := fun _ => rfl
  have hy : ∀ n : Nat, n + 0 = n := fun _ => rfl
  unfold Spec.HtmlTok.plain
  rw [hst, hh]
  cases c with
  | none =>
    unfold onNumericRef at hr
    dsimp only at hr
    tok_sim0
  | some c =>
    unfold onNumericRef at hr
    dsimp only at hr
    split_ifs at hr <;> tok_sim1

end Verif.Proof.HtmlTok
