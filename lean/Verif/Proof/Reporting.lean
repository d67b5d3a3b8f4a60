import Verif.Spec.Reporting
import Verif.Proof.Multibyte
import Verif.Proof.LegacyApi
/- Runs of decoders as reports. -/
namespace Verif.Proof.Reporting
open Verif.Model.Coder Verif.Model.Legacy Verif.Spec Verif.Proof.CoderRun Verif.Proof.Utf8Coder Verif.Proof.LegacyApi
open Verif.Proof.Multibyte

theorem points_report_good {a : List Res} (h : ∀ r ∈ a, ∀ cp, r ≠ .error cp) (rest : List (Option Nat)) :
    points ((report a ++ none :: rest).takeWhile Option.isSome) = points (report a) := by
  have hs : ∀ x ∈ report a, Option.isSome x = true := by
    intro x hx
    cases x with
    | some c => rfl
    | none =>
      obtain ⟨r, hr, cp, rfl⟩ := (error_iff_report a).mpr hx
      exact absurd rfl (h _ hr cp)
  rw [List.takeWhile_append_of_pos hs]
  simp

/-- A trace with an error stops there in mode `fatal`, whatever comes behind. -/
theorem fatal_stops {e : Enc} {b : List Nat} {rs : List Res} {st1 : (decoderOf e).σ} {q1 : Queue} {n : Nat}
    (ht : Trace (decoderOf e).run (decoderOf e).init (qq b) rs st1 q1) (hl : rs.length ≤ n) (hn : none ∈ report rs)
    (o2 : List (Option Nat)) : WritesFatal n e b (report rs ++ o2) := by
  intro fuel hf
  obtain ⟨cp, st', q', o', e1, a, c, e2, e3, e4⟩ := processQueue_trace_fatal (dec := false) ht
    ((error_iff_report rs).mpr hn) fuel (by omega) [] false
  refine ⟨.error cp, q', outAt ([] ++ o') false, ?_, by simp [hn], ?_⟩
  · unfold runCoder
    rw [toQueue_qq, nil_outAt, e1]
  · rw [fromQueue_outAt, e4, outs_fatal, e2, report_append, report_cons, List.append_assoc]
    exact (points_report_good e3 _).symm

theorem reports_of_ran {e : Enc} {b : List Nat} {o : List (Option Nat)} {n : Nat}
    (h : Ran (decoderOf e).run (decoderOf e).init (qq b) o n) : Reports n e b o := by
  obtain ⟨rs, j, hw, rfl, hl⟩ := h
  refine ⟨fun fuel hf => ⟨[.eoq], outAt (points (report rs)) true, ?_, fromQueue_outAt _ _⟩, ?_⟩
  · unfold runCoder
    rw [toQueue_qq, nil_outAt, processQueue_whole hw (Or.inl (by simp)) fuel (by omega), outs_replacement_false]
    rfl
  · by_cases hn : none ∈ report rs
    · obtain ⟨st1, q1, it, q', pre, ht, _⟩ := hw
      have := fatal_stops ht hl hn []
      rwa [List.append_nil] at this
    · intro fuel hf
      have hne : ∀ r ∈ rs, ∀ cp, r ≠ .error cp := fun r hr cp e => hn ((error_iff_report rs).mp ⟨r, hr, cp, e⟩)
      refine ⟨.finished, [.eoq], outAt (points (report rs)) true, ?_, by simp [hn], ?_⟩
      · unfold runCoder
        rw [toQueue_qq, nil_outAt, processQueue_whole hw (Or.inr hne) fuel (by omega), outs_fatal]
        rfl
      · have hs : ∀ x ∈ report rs, Option.isSome x = true := by
          intro x hx
          cases x with
          | some c => rfl
          | none => exact absurd hx hn
        have := List.takeWhile_append_of_pos (l₂ := []) hs
        simp only [List.append_nil, List.takeWhile_nil] at this
        rw [fromQueue_outAt, this]

end Verif.Proof.Reporting
