import Verif.Proof.HtmlTokSim1
import Verif.Proof.HtmlTokSim2
import Verif.Proof.HtmlTokSim3
import Verif.Proof.HtmlTokSim4
import Verif.Proof.HtmlTokTop
/-
One step of the model is one step of the standard.
-/
namespace Verif.Proof.HtmlTok
open Verif.Model.HtmlTok Verif.Model.HtmlInput Verif.Model.Infra Verif.Proof.HtmlInput
variable {σ : Type}

theorem act_sim (S : Sink σ) (hS : SwitchOk S) (m : M σ) (c : Option Nat) (x : Spec.HtmlTok.C σ) (h : Sit m c x)
    (hp : refSt m.st = true → ∀ e, m.ret = some e → isRet e = true) (hsp : special m.st = false) (ht : ¬ Trouble S x) :
    OutR S x c (act S m.st m c) := by
  cases hs : m.st
  · exact data_sim S m c x h hs
  · exact rcdata_sim S m c x h hs
  · exact rawtext_sim S m c x h hs
  · exact scriptData_sim S m c x h hs
  · exact plaintext_sim S m c x h hs
  · exact tagOpen_sim S m c x h hs
  · exact endTagOpen_sim S m c x h hs
  · exact tagName_sim S hS m c x h hs
  · exact rcdataLt_sim S m c x h hs
  · exact rcdataEndOpen_sim S m c x h hs
  · exact rawEndName_sim S hS m c x .rcdata .rcdataEndName h hs rfl (Or.inl rfl) rfl
  · exact rawtextLt_sim S m c x h hs
  · exact rawtextEndOpen_sim S m c x h hs
  · exact rawEndName_sim S hS m c x .rawtext .rawtextEndName h hs rfl (Or.inr (Or.inl rfl)) rfl
  · exact scriptLt_sim S m c x h hs
  · exact scriptEndOpen_sim S m c x h hs
  · exact rawEndName_sim S hS m c x .scriptData .scriptEndName h hs rfl (Or.inr (Or.inr (Or.inl rfl))) rfl
  · exact scriptEscStart_sim S m c x h hs
  · exact scriptEscStartDash_sim S m c x h hs
  · exact scriptEsc_sim S m c x h hs
  · exact scriptEscDash_sim S m c x h hs
  · exact scriptEscDashDash_sim S m c x h hs
  · exact scriptEscLt_sim S m c x h hs
  · exact scriptEscEndOpen_sim S m c x h hs
  · exact rawEndName_sim S hS m c x .scriptEsc .scriptEscEndName h hs rfl (Or.inr (Or.inr (Or.inr rfl))) rfl
  · refine scriptDblStart_sim S m c x h hs ?_
    rintro n rfl hn
    by_contra hne
    refine ht (Or.inr (Or.inl ⟨by rw [h.core.st, hs]; rfl, by rw [h.core.tmp]; exact hne, n, ?_, h.head⟩))
    simpa using close_cases hn
  · exact scriptDbl_sim S m c x h hs
  · exact scriptDblDash_sim S m c x h hs
  · exact scriptDblDashDash_sim S m c x h hs
  · exact scriptDblLt_sim S m c x h hs
  · exact scriptDblEnd_sim S m c x h hs
  · exact beforeAttrName_sim S m c x h hs
  · exact attrName_sim S m c x h hs
  · exact afterAttrName_sim S hS m c x h hs
  · exact beforeAttrValue_sim S hS m c x h hs
  · exact attrValueDq_sim S m c x h hs
  · exact attrValueSq_sim S m c x h hs
  · exact attrValueUq_sim S hS m c x h hs
  · exact afterAttrValue_sim S hS m c x h hs
  · exact selfClosing_sim S hS m c x h hs
  · exact bogusComment_sim S m c x h hs
  · rw [hs] at hsp; cases hsp
  · exact commentStart_sim S m c x h hs
  · exact commentStartDash_sim S m c x h hs
  · refine comment_sim S m c x h hs ?_
    rintro rfl
    exact ht (Or.inl ⟨by rw [h.core.st, hs]; rfl, h.head⟩)
  · exact commentLt_sim S m c x h hs
  · exact commentLtBang_sim S m c x h hs
  · exact commentLtBangDash_sim S m c x h hs
  · exact commentLtBangDashDash_sim S m c x h hs
  · exact commentEndDash_sim S m c x h hs
  · exact commentEnd_sim S m c x h hs
  · exact commentEndBang_sim S m c x h hs
  · exact doctype_sim S m c x h hs
  · exact beforeDoctypeName_sim S m c x h hs
  · exact doctypeName_sim S m c x h hs
  · rw [hs] at hsp; cases hsp
  · exact afterPublicKw_sim S m c x h hs
  · exact beforePublicId_sim S m c x h hs
  · exact publicIdDq_sim S m c x h hs
  · exact publicIdSq_sim S m c x h hs
  · exact afterPublicId_sim S m c x h hs
  · exact betweenIds_sim S m c x h hs
  · exact afterSystemKw_sim S m c x h hs
  · exact beforeSystemId_sim S m c x h hs
  · exact systemIdDq_sim S m c x h hs
  · exact systemIdSq_sim S m c x h hs
  · exact afterSystemId_sim S m c x h hs
  · exact bogusDoctype_sim S m c x h hs
  · exact cdata_sim S m c x h hs
  · exact cdataBracket_sim S m c x h hs
  · exact cdataEnd_sim S m c x h hs
  · exact charRef_sim S m c x h hs (hp (by rw [hs]; rfl))
  · rw [hs] at hsp; cases hsp
  · exact ambiguousAmp_sim S m c x h hs (hp (by rw [hs]; rfl))
  · exact numericRef_sim S m c x h hs
  · exact hexStart_sim S m c x h hs (hp (by rw [hs]; rfl))
  · exact decStart_sim S m c x h hs (hp (by rw [hs]; rfl))
  · exact hexRef_sim S m c x h hs
  · exact decRef_sim S m c x h hs
  · rw [hs] at hsp; cases hsp

theorem Core.inp {m : M σ} {x : Spec.HtmlTok.C σ} (h : Core m x) (i : Stream) (r : List Nat) (e : Bool) :
    Core { m with inp := i } { x with rest := r, ended := e } :=
  ⟨h.st, h.ret, h.tmp, h.dtName, h.pub, h.sys, h.quirks, h.tag, h.com, h.last, h.code, h.sink, h.pubSome, h.sysSome⟩

theorem Core.inp' {m : M σ} {x : Spec.HtmlTok.C σ} (h : Core m x) (i : Stream) : Core { m with inp := i } x := h.inp i x.rest x.ended

/-- The tokenizer `m` with the text `l` still to come is the tokenizer `x` of the standard. -/
structure Sim (l : List Nat) (m : M σ) (x : Spec.HtmlTok.C σ) : Prop where
  core : Core m x
  rest : x.rest = m.inp.c ++ l
  eofl : m.inp.eof = true → l = []
  ended : x.ended = m.inp.eofConsumed
  marks : (m.inp.c = [] ∧ m.inp.eof = true) ∨ MarksIn m.st (cur m).attrs

theorem plain_sim (S : Sink σ) (hS : SwitchOk S) (find : Find) (refs : Spec.HtmlTok.Refs) (l : List Nat) (m m1 : M σ) (x : Spec.HtmlTok.C σ)
    (h : Sim l m x) (hi : Inv m) (hr : Ready m) (ht : ¬ Trouble S x) (hsp : special m.st = false) (hs : mstep S find m = some m1) :
    Sim l m1 (Spec.HtmlTok.step (envOf S) refs x) := by
  have hx : x.ended = false := h.ended.trans hr.fresh
  have hstep : Spec.HtmlTok.step (envOf S) refs x = Spec.HtmlTok.plain (envOf S) x := by
    unfold Spec.HtmlTok.step
    rw [hx]
    have := h.core.st
    revert hsp this
    cases m.st <;> intro hsp this <;> first | (cases hsp; done) | (rw [this]; rfl)
  rw [hstep]
  have hp : refSt m.st = true → ∀ e, m.ret = some e → isRet e = true := by
    intro ha e he
    obtain ⟨e', h1, h2, _⟩ := hi.ret ha
    rw [h1] at he
    cases he
    exact h2
  rw [mstep_plain S find m hsp] at hs
  cases hb : m.inp.c with
  | nil =>
    have he : m.inp.eof = true := by
      rcases hr.can with hc | hc
      · exact absurd hb hc
      · exact hc
    have hl := h.eofl he
    subst hl
    rw [next_none m hb he] at hs
    dsimp only at hs
    obtain ⟨m2, b, e, ok⟩ := act_ok S hS { m with inp := { m.inp with eofConsumed := true } } none
      ⟨hi.ret, hi.need, hi.endk, fun _ => Or.inr (Or.inr (Or.inr rfl))⟩ hsp
    have hsit : Sit { m with inp := { m.inp with eofConsumed := true } } none x :=
      ⟨h.core.inp' _, hx, by rw [h.rest, hb]; rfl, Or.inl rfl⟩
    have ho := act_sim S hS _ none x hsit hp hsp ht m2 b e
    have e' : act S m.st { m with inp := { m.inp with eofConsumed := true } } none = some (m2, b) := e
    rw [e'] at hs
    have hrest : x.rest = [] := by rw [h.rest, hb]; rfl
    cases b with
    | false =>
      simp only [Option.some.injEq] at hs
      subst hs
      refine ⟨ho.core, ?_, fun _ => rfl, ?_, Or.inl ?_⟩
      · rw [ho.rest, ok.inp, hrest]; simp [hb]
      · rw [ho.ended, ok.inp]; rfl
      · rw [ok.inp]; exact ⟨hb, he⟩
    | true =>
      simp only [Option.some.injEq] at hs
      subst hs
      have hre : reconsume m2.inp = m.inp := by
        rw [ok.inp]
        simp [reconsume]
        rw [← hr.fresh]
      refine ⟨ho.core.inp' _, ?_, fun _ => rfl, ?_, Or.inl ?_⟩
      · rw [ho.rest]; simp only [if_true, hre]; exact h.rest
      · rw [ho.ended]; simp only [hre]; exact hr.fresh.symm
      · simp only [hre]; exact ⟨hb, he⟩
  | cons a r =>
    rw [next_some m a r hb hr.fresh] at hs
    dsimp only at hs
    obtain ⟨m2, b, e, ok⟩ := act_ok S hS { m with inp := { m.inp with c := r, cur := a } } (some a)
      ⟨hi.ret, hi.need, hi.endk, by
        intro hs
        rcases hi.after hs with q | q | q | q
        · exact Or.inl q
        · rw [hb] at q; exact Or.inr (Or.inl q)
        · rw [hb] at q; exact Or.inr (Or.inr (Or.inl q))
        · rw [hb] at q; exact absurd q.1 (by simp)⟩ hsp
    have hmk : MarksIn m.st (cur m).attrs := by
      rcases h.marks with q | q
      · rw [hb] at q; exact absurd q.1 (by simp)
      · exact q
    have hsit : Sit { m with inp := { m.inp with c := r, cur := a } } (some a) x :=
      ⟨h.core.inp' _, hx, by rw [h.rest, hb]; rfl, Or.inr hmk⟩
    have ho := act_sim S hS _ (some a) x hsit hp hsp ht m2 b e
    have e' : act S m.st { m with inp := { m.inp with c := r, cur := a } } (some a) = some (m2, b) := e
    rw [e'] at hs
    have hmk2 : MarksIn m2.st (cur m2).attrs := by
      rcases ho.marks with q | q
      · cases q
      · exact q
    cases b with
    | false =>
      simp only [Option.some.injEq] at hs
      subst hs
      refine ⟨ho.core, ?_, ?_, ?_, Or.inr hmk2⟩
      · rw [ho.rest, ok.inp, h.rest, hb]; simp
      · rw [ok.inp]; exact h.eofl
      · rw [ho.ended, ok.inp]; exact hr.fresh.symm
    | true =>
      simp only [Option.some.injEq] at hs
      subst hs
      have hre : reconsume m2.inp = { m.inp with cur := a } := by
        rw [ok.inp]
        simp only [reconsume, hr.fresh]
        simp [hb]
      refine ⟨ho.core.inp' _, ?_, ?_, ?_, Or.inr hmk2⟩
      · rw [ho.rest]; simp only [if_true, hre]; exact h.rest
      · simp only [hre]; exact h.eofl
      · rw [ho.ended]; simp only [hre]; exact hr.fresh.symm

end Verif.Proof.HtmlTok
