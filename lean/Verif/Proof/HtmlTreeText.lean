import Verif.Proof.HtmlTreeKept
import Verif.Proof.HtmlTokKeep
import Verif.Proof.HtmlTokConf
/- The tree construction behind the tokenizer: what every token keeps, a text keeps. -/
namespace Verif.Proof.HtmlTree
open Verif.Model.HtmlTree Verif.Spec.HtmlTokBridge Verif.Proof.HtmlTokKeep Verif.Proof.HtmlTok
open Verif.Model.HtmlTok (Sink Find feed)
open Verif.Spec.Infra (normNL)
variable {tbl : List Nat → Bool}

theorem switch_sink (tbl : List Nat → Bool) : SwitchOk (sink tbl) := by
  intro r st h
  cases r with
  | error e => cases h
  | ok s =>
    change s.switch.map Sw.st = some st at h
    cases hs : s.switch with
    | none => rw [hs] at h; cases h
    | some w => rw [hs] at h; cases w <;> cases h <;> simp [Sw.st]

/-- Pushing a text ends. -/
theorem feed_total {σ : Type} (P : Nat → Prop) (T : Sink σ) (hS : SwitchOk T) (find : Find) (hF : FindOk P find) (h10 : P 10) (s : σ)
    (l : List Nat) (hl : ∀ c ∈ l, P c) :
    ∃ r, ∀ f, 24 * l.length + 39 ≤ f → feed T find f false l (Verif.Model.HtmlTok.init s) = some r := by
  have hcm : coming false l = normNL l := Verif.Props.HtmlInput.C53_newlines l
  have hq : Quiet (Chars P (coming false l)) (Verif.Model.HtmlTok.init s) := by
    refine ⟨⟨?_, ?_, ?_, ?_, ?_⟩, rfl, rfl, hcm ▸ chars_start h10 s hl⟩ <;>
      simp [Verif.Model.HtmlTok.init, refSt, Need, freeSt, attrSt, endSt]
  obtain ⟨cr, m1, a1, -⟩ := feed_ok (Chars P) T hS find (chars_text P T find hF) (fun _ _ => True)
    ⟨fun _ _ _ _ _ _ _ _ _ => trivial, fun _ _ _ _ _ => trivial, fun _ _ _ => trivial⟩ l false (Verif.Model.HtmlTok.init s) hq l.length
    (by simp [Verif.Model.HtmlTok.init])
  exact ⟨_, a1⟩

/-- An invariant of the states, and a class of failures. -/
def Inv (I : S → Prop) (E : Fail → Prop) : R S → Prop
  | .ok s => I s
  | .error e => E e

theorem kept_sink {I : S → Prop} {E : Fail → Prop} (h : ∀ s tok, I s → Inv I E (emit tbl tok s)) :
    HtmlTokKeep.Kept (Inv I E) (sink tbl) := by
  intro r t hr
  cases r with
  | error e => exact hr
  | ok s => exact h s _ hr

/-- What every token keeps, parsing a text keeps. -/
theorem parse_inv {I : S → Prop} {E : Fail → Prop} (h : ∀ s tok, I s → Inv I E (emit tbl tok s)) (h0 : I init) (P : Nat → Prop)
    (find : Find) (hF : FindOk P find) (h10 : P 10) (l : List Nat) (hl : ∀ c ∈ l, P c) :
    ∃ r, (∀ f, 24 * l.length + 39 ≤ f → parse tbl find f l = some r) ∧ Inv I E r := by
  obtain ⟨r, hr⟩ := feed_total P (sink tbl) (switch_sink tbl) find hF h10 (.ok init) l hl
  refine ⟨r.2.sink, fun f hf => by unfold parse; rw [hr f hf]; rfl, ?_⟩
  exact k_feed (kept_sink h) find _ l false (m := Verif.Model.HtmlTok.init (Except.ok init)) (show Inv I E (Except.ok init) from h0) r (hr _ (Nat.le_refl _))

theorem parseEof_inv {I : S → Prop} {E : Fail → Prop} (h : ∀ s tok, I s → Inv I E (emit tbl tok s)) (h0 : I init) (P : Nat → Prop)
    (find : Find) (hF : FindOk P find) (h10 : P 10) (l : List Nat) (hl : ∀ c ∈ l, P c) :
    ∃ r, (∀ f, 24 * l.length + 39 ≤ f → parseEof tbl find f l = some r) ∧ Inv I E r := by
  obtain ⟨m, hm⟩ := total_chars P (sink tbl) (switch_sink tbl) find hF h10 (.ok init) l hl
  refine ⟨m.sink, fun f hf => by unfold parseEof; rw [hm f hf]; rfl, ?_⟩
  have := ko_tokenize (kept_sink h) find (24 * l.length + 39) (Except.ok init) l h0
  rw [hm _ (Nat.le_refl _)] at this
  exact this _ rfl

/-- The invariant of termination. -/
theorem k_inv (s : S) (tok : Tok) (k : K1 s) : Inv K1 (· ≠ .fuel) (emit tbl tok s) := by
  have h1 := nf_emit (tbl := tbl) (tok := tok) k
  have h2 := k_emit (tbl := tbl) (tok := tok) k
  cases h : emit tbl tok s with
  | error e => rw [h] at h1; exact fun he => h1 (by rw [he])
  | ok s' => exact h2 s' h

end Verif.Proof.HtmlTree
