import Verif.Proof.StreamApi
import Verif.Spec.Decoding
/- What every decoder emits, and when it fails an assertion. -/
namespace Verif.Proof.DecodeAll
open Verif.Model.Coder Verif.Model.Table Verif.Model.Tables Verif.Model.Legacy Verif.Model.TextDecoder Verif.Spec
open Verif.Proof.CoderRun Verif.Proof.Utf8Coder Verif.Proof.Stream Verif.Proof.StreamCoders Verif.Proof.StreamApi

/-- A result that adds scalar values only. -/
def Clean : Res → Prop
  | .points l => ∀ c ∈ l, IsScalar c
  | .bytes _ => False
  | _ => True

section
variable {σ : Type} {run : Run σ}

/-- An invariant of the state and the bytes left. -/
def Keeps (run : Run σ) (J : σ → List Nat → Prop) : Prop :=
  ∀ st v b r st' pv, J st (v :: b) → run st (.val v) = some (r, st', pv.map .val) → J st' (pv ++ b)

theorem Keeps.feeds {J : σ → List Nat → Prop} (h : Keeps run J) {st st2 : σ} {b : List Nat} {rs : List Res}
    (f : Feeds run st b rs st2) (hj : J st b) : J st2 [] := by
  induction f with
  | nil => exact hj
  | step h1 _ _ ih => exact ih (h _ _ _ _ _ _ hj h1)

theorem Keeps.fails {J : σ → List Nat → Prop} (h : Keeps run J) (hn : ∀ st v b, J st (v :: b) → run st (.val v) ≠ none)
    {st : σ} {b : List Nat} {rs : List Res} (f : Fails run st b rs) (hj : J st b) : False := by
  induction f with
  | here h1 => exact hn _ _ _ hj h1
  | step h1 _ _ ih => exact ih (h _ _ _ _ _ _ hj h1)

/-- An invariant of the state with which only scalar values are emitted. -/
def Pure (run : Run σ) (K : σ → Prop) : Prop :=
  ∀ st v r st' pre, K st → run st (.val v) = some (r, st', pre) → K st' ∧ Clean r

theorem Pure.feeds {K : σ → Prop} (h : Pure run K) {st st2 : σ} {b : List Nat} {rs : List Res}
    (f : Feeds run st b rs st2) (hk : K st) : ∀ r ∈ rs, Clean r := by
  induction f with
  | nil => simp
  | step h1 _ _ ih =>
    obtain ⟨k, c⟩ := h _ _ _ _ _ hk h1
    intro r hr
    rcases List.mem_cons.mp hr with rfl | hr
    · exact c
    · exact ih k r hr

theorem outs_clean {mode : Mode} (hm : mode ≠ .html) {rs : List Res} (h : ∀ r ∈ rs, Clean r) :
    ∀ c ∈ outs false mode rs, IsScalar c := by
  intro c hc
  simp only [outs, List.mem_flatMap] at hc
  obtain ⟨r, hr, hc⟩ := hc
  have hcl := h r hr
  cases r with
  | points l => exact hcl c hc
  | bytes l => exact hcl.elim
  | finished => simp [out1] at hc
  | cont => simp [out1] at hc
  | error cp => cases mode <;> simp [out1] at hc hm

end

theorem modeOf_ne (o : Options) : modeOf o ≠ .html := by unfold modeOf; split <;> simp

/-- Flushing fails only where the decoder fails on end-of-queue. -/
theorem flushes_ub {σ : Type} {run : Run σ} {inv : σ → Prop} {W : Nat} {φ : σ → Nat} (p : Progress run inv W φ)
    {fatal : Bool} {st : σ} (hi : inv st) (h : Flushes run (if fatal then .fatal else .replacement) st .ub) :
    run st .eoq = none := by
  by_contra hn
  obtain ⟨y, hy⟩ := Option.ne_none_iff_exists'.mp hn
  have h2 := h 2 (by omega) []
  dsimp only at h2
  obtain ⟨r, st', pre⟩ := y
  rw [loop, read_nil] at h2
  rcases p.flush st r st' pre hi hy with rfl | ⟨⟨cp, rfl⟩, hp, st2, h3⟩
  · simp [processItem, hy] at h2
  · cases fatal with
    | true => simp [processItem, hy] at h2
    | false =>
      obtain ⟨q, hq⟩ : ∃ q, pre ++ qq [] = .eoq :: q := by
        rcases hp with rfl | rfl
        · exact ⟨[], rfl⟩
        · exact ⟨[.eoq], rfl⟩
      simp only [Option.getD_some, processItem, hy] at h2
      simp only [Bool.false_eq_true, and_false, if_false, prepend] at h2
      rw [hq, loop] at h2
      simp [Verif.Model.Coder.read, processItem, h3] at h2

theorem ser_mem (utf ig seen : Bool) (t : List Nat) : ∀ c ∈ (ser utf ig seen t).1, c ∈ t := by
  intro c hc
  unfold ser at hc
  split at hc
  · cases t with
    | nil => simp at hc
    | cons v t =>
      dsimp only at hc
      split at hc
      · simp [hc]
      · exact hc
  · exact hc

theorem outcome_clean {o : Options} {K : (decoderOf o.name).σ → Prop} (h : Pure (decoderOf o.name).run K)
    {st : (decoderOf o.name).σ} (hk : K st) {seen : Bool} {b t : List Nat} (hx : Outcome o st seen b (.stop (some t))) :
    ∀ c ∈ t, IsScalar c := by
  cases hx with
  | fine f _ =>
    obtain ⟨rs, f, _, rfl⟩ := f
    intro c hc
    exact outs_clean (modeOf_ne o) (h.feeds f hk) c (ser_mem _ _ _ _ c hc)

theorem outcome_safe {o : Options} {inv : (decoderOf o.name).σ → Prop} {W : Nat} {φ : (decoderOf o.name).σ → Nat}
    (p : Progress (decoderOf o.name).run inv W φ) {J : (decoderOf o.name).σ → List Nat → Prop}
    (h : Keeps (decoderOf o.name).run J) (hn : ∀ st v b, J st (v :: b) → (decoderOf o.name).run st (.val v) ≠ none)
    (he : ∀ st, J st [] → (decoderOf o.name).run st .eoq ≠ none) {st : (decoderOf o.name).σ} (hi : inv st) {seen : Bool}
    {b : List Nat} (hj : J st b) : ¬ Outcome o st seen b .ub := by
  intro hx
  cases hx with
  | endUb f fl =>
    obtain ⟨rs, f, _, _⟩ := f
    exact he _ (h.feeds f hj) (flushes_ub p (feeds_inv p f hi) fl)
  | ub f =>
    obtain ⟨rs, f, _⟩ := f
    exact h.fails hn f hj

end Verif.Proof.DecodeAll
