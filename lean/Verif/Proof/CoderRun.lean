import Verif.Model.Coder
import Verif.Spec.Decode
/- Runs of coders as traces, and what they leave in the output queue. -/
namespace Verif.Proof.CoderRun
open Verif.Model.Coder Verif.Spec

/-- A sequence of iterations that does not finish. -/
inductive Trace {σ : Type} (run : Run σ) : σ → Queue → List Res → σ → Queue → Prop
  | nil (st : σ) (q : Queue) : Trace run st q [] st q
  | step {st st' st2 : σ} {q q' q2 : Queue} {item : Item} {r : Res} {pre : List Item} {rs : List Res} :
      read q = some (item, q') → run st item = some (r, st', pre) → r ≠ .finished →
      Trace run st' (pre ++ q') rs st2 q2 → Trace run st q (r :: rs) st2 q2

theorem Trace.append {σ : Type} {run : Run σ} {st st2 st3 : σ} {q q2 q3 : Queue} {rs rs' : List Res}
    (h : Trace run st q rs st2 q2) (h' : Trace run st2 q2 rs' st3 q3) : Trace run st q (rs ++ rs') st3 q3 := by
  induction h with
  | nil => exact h'
  | step a b c _ ih => exact .step a b c (ih h')

/-- The report of a sequence of results. -/
def report (rs : List Res) : List (Option Nat) := rs.flatMap fun r =>
  match r with
  | .points l => l.map some
  | .bytes l => l.map some
  | .error _ => [none]
  | _ => []

theorem report_append (a b : List Res) : report (a ++ b) = report a ++ report b := by simp [report]
theorem report_nil : report [] = [] := rfl
theorem report_cons (r : Res) (rs : List Res) : report (r :: rs) = report [r] ++ report rs := by simp [report]

/-- What one result adds to the output in a mode that does not stop. -/
def out1 (dec : Bool) (mode : Mode) : Res → List Nat
  | .points l => l
  | .bytes l => l
  | .error cp => match mode with
    | .replacement => if dec then [0xFFFD] else []
    | .html => [0x26, 0x23] ++ toChars 10 cp ++ [0x3B]
    | _ => []
  | _ => []

def outs (dec : Bool) (mode : Mode) (rs : List Res) : List Nat := rs.flatMap (out1 dec mode)

/-- An output queue holding `o`, closed by end-of-queue or not. -/
def outAt (o : List Nat) (closed : Bool) : Queue := o.map .val ++ (if closed then [.eoq] else [])

theorem getLast_vals (o : List Nat) : (o.map Item.val).getLast? ≠ some .eoq := by
  intro h
  have := List.mem_of_getLast? h
  simp at this

theorem push_val (o : List Nat) (c : Bool) (v : Nat) : push (outAt o c) (.val v) = outAt (o ++ [v]) c := by
  unfold push outAt
  cases c with
  | false =>
    simp only [Bool.false_eq_true, if_false, List.append_nil]
    rw [if_neg (getLast_vals o)]; simp
  | true => simp [List.dropLast_concat]

theorem pushAll_vals (o : List Nat) (c : Bool) (l : List Nat) : pushAll (outAt o c) l = outAt (o ++ l) c := by
  induction l generalizing o with
  | nil => simp [pushAll]
  | cons v l ih => rw [pushAll, push_val, ih]; simp

theorem push_eoq (o : List Nat) (c : Bool) : push (outAt o c) .eoq = outAt o true := by
  unfold push outAt
  cases c with
  | false =>
    simp only [Bool.false_eq_true, if_false, List.append_nil]
    rw [if_neg (getLast_vals o)]; simp
  | true => simp

theorem toQueue_eq (s : List Nat) : toQueue s = s.map .val ++ [.eoq] := by
  unfold toQueue
  have : ([] : Queue) = outAt [] false := rfl
  rw [this, pushAll_vals, push_eoq]; simp [outAt]

theorem fromQueue_outAt (o : List Nat) (c : Bool) : fromQueue (outAt o c) = o := by
  induction o with
  | nil => cases c <;> rfl
  | cons v o ih =>
    have : outAt (v :: o) c = .val v :: outAt o c := by simp [outAt]
    rw [this, fromQueue, ih]

theorem processItem_cont {σ : Type} {dec : Bool} {run : Run σ} {mode : Mode} {item : Item} {st st' : σ} {r : Res}
    {pre : List Item} (q : Queue) (o : List Nat) (c : Bool) (h : run st item = some (r, st', pre)) (hr : r ≠ .finished)
    (hm : mode ≠ .fatal ∨ ∀ cp, r ≠ .error cp) :
    processItem dec run mode item st q (outAt o c) = some (.cont, st', pre ++ q, outAt (o ++ out1 dec mode r) c) := by
  unfold processItem
  rw [h]
  cases r with
  | finished => exact absurd rfl hr
  | cont => simp [prepend, out1]
  | points l => simp [prepend, out1, pushAll_vals]
  | bytes l => simp [prepend, out1, pushAll_vals]
  | error cp =>
    cases mode with
    | fatal => rcases hm with hm | hm
               · exact absurd rfl hm
               · exact absurd rfl (hm cp)
    | none => simp [prepend, out1]
    | replacement => cases dec <;> simp [prepend, out1, push_val]
    | html =>
      have e := pushAll_vals o c ([0x26, 0x23] ++ toChars 10 cp ++ [0x3B])
      simp only [List.cons_append, List.nil_append] at e
      simp [prepend, out1, e]

/-- A trace drives `process_queue`, unless an error stops it. -/
theorem processQueue_trace {σ : Type} {dec : Bool} {run : Run σ} {mode : Mode} {st st2 : σ} {q q2 : Queue}
    {rs : List Res} (h : Trace run st q rs st2 q2) (hm : mode ≠ .fatal ∨ ∀ r ∈ rs, ∀ cp, r ≠ .error cp)
    (fuel : Nat) (o : List Nat) (c : Bool) :
    processQueue dec run mode (rs.length + fuel) st q (outAt o c) =
      processQueue dec run mode fuel st2 q2 (outAt (o ++ outs dec mode rs) c) := by
  induction h generalizing o with
  | nil => simp [outs]
  | @step st st' st2 q q' q2 item r pre rs h1 h2 h3 h4 ih =>
    have e : (r :: rs).length + fuel = rs.length + fuel + 1 := by simp; omega
    rw [e, processQueue, h1]
    dsimp only
    rw [processItem_cont q' o c h2 h3 (hm.imp id (fun h => h r (by simp)))]
    dsimp only
    rw [if_pos rfl, ih (hm.imp id (fun h x hx => h x (by simp [hx])))]
    simp [outs]

theorem processQueue_finish {σ : Type} {dec : Bool} {run : Run σ} {mode : Mode} {st st' : σ} {q q' : Queue}
    {item : Item} {pre : List Item} (h1 : read q = some (item, q')) (h2 : run st item = some (.finished, st', pre))
    (fuel : Nat) (o : List Nat) (c : Bool) :
    processQueue dec run mode (fuel + 1) st q (outAt o c) = .stop (.finished, st', pre ++ q', outAt o true) := by
  rw [processQueue, h1]
  simp [processItem, h2, prepend, push_eoq]

theorem processQueue_fatal {σ : Type} {dec : Bool} {run : Run σ} {st st' : σ} {q q' : Queue}
    {item : Item} {pre : List Item} {cp : Nat} (h1 : read q = some (item, q'))
    (h2 : run st item = some (.error cp, st', pre)) (fuel : Nat) (out : Queue) :
    processQueue dec run .fatal (fuel + 1) st q out = .stop (.error cp, st', pre ++ q', out) := by
  rw [processQueue, h1]
  simp [processItem, h2, prepend]

/-- A run to the end of the input. -/
def Whole {σ : Type} (run : Run σ) (st : σ) (q : Queue) (rs : List Res) (st2 : σ) (q2 : Queue) : Prop :=
  ∃ st1 q1 item q' pre, Trace run st q rs st1 q1 ∧ read q1 = some (item, q') ∧
    run st1 item = some (.finished, st2, pre) ∧ q2 = pre ++ q'

theorem processQueue_whole {σ : Type} {dec : Bool} {run : Run σ} {mode : Mode} {st st2 : σ} {q q2 : Queue}
    {rs : List Res} (h : Whole run st q rs st2 q2) (hm : mode ≠ .fatal ∨ ∀ r ∈ rs, ∀ cp, r ≠ .error cp)
    (fuel : Nat) (hf : rs.length < fuel) (o : List Nat) (c : Bool) :
    processQueue dec run mode fuel st q (outAt o c) = .stop (.finished, st2, q2, outAt (o ++ outs dec mode rs) true) := by
  obtain ⟨st1, q1, item, q', pre, h1, h2, h3, rfl⟩ := h
  obtain ⟨k, rfl⟩ : ∃ k, fuel = rs.length + (k + 1) := ⟨fuel - rs.length - 1, by omega⟩
  rw [processQueue_trace h1 hm, processQueue_finish h2 h3]

/-- In fatal mode a trace with an error stops there, keeping what was written before. -/
theorem processQueue_trace_fatal {σ : Type} {dec : Bool} {run : Run σ} {st st2 : σ} {q q2 : Queue}
    {rs : List Res} (h : Trace run st q rs st2 q2) (he : ∃ r ∈ rs, ∃ cp, r = .error cp) (fuel : Nat)
    (hf : rs.length ≤ fuel) (o : List Nat) (c : Bool) :
    ∃ cp st' q' o', processQueue dec run .fatal fuel st q (outAt o c) = .stop (.error cp, st', q', outAt (o ++ o') c) ∧
      ∃ a b, rs = a ++ .error cp :: b ∧ (∀ r ∈ a, ∀ cp, r ≠ .error cp) ∧ o' = outs dec .fatal a := by
  induction h generalizing o fuel with
  | nil => simp at he
  | @step st st' st2 q q' q2 item r pre rs h1 h2 h3 h4 ih =>
    simp only [List.length_cons] at hf
    obtain ⟨k, rfl⟩ : ∃ k, fuel = k + 1 := ⟨fuel - 1, by omega⟩
    by_cases hr : ∃ cp, r = .error cp
    · obtain ⟨cp, rfl⟩ := hr
      refine ⟨cp, st', pre ++ q', [], ?_, [], rs, rfl, by simp, rfl⟩
      rw [processQueue_fatal h1 h2]; simp
    · have hr' : ∀ cp, r ≠ .error cp := fun cp h => hr ⟨cp, h⟩
      obtain ⟨x, hx, cp, hxc⟩ := he
      have hx' : x ∈ rs := by
        rcases List.mem_cons.mp hx with h | h
        · exact absurd (h ▸ hxc) (hr' cp)
        · exact h
      obtain ⟨cp', s', q'', o', e, a, b, e1, e2, e3⟩ :=
        ih ⟨x, hx', cp, hxc⟩ k (by omega) (o ++ out1 dec .fatal r)
      refine ⟨cp', s', q'', out1 dec .fatal r ++ o', ?_, r :: a, b, by rw [e1]; rfl, ?_, ?_⟩
      · rw [processQueue, h1]
        dsimp only
        rw [processItem_cont q' o c h2 h3 (Or.inr hr')]
        dsimp only
        rw [if_pos rfl, e, List.append_assoc]
      · intro y hy
        rcases List.mem_cons.mp hy with h | h
        · exact h ▸ hr'
        · exact e2 y h
      · rw [e3]; rfl

theorem outs_replacement_false (rs : List Res) : outs false .replacement rs = points (report rs) := by
  induction rs with
  | nil => rfl
  | cons r rs ih =>
    have : outs false .replacement (r :: rs) = out1 false .replacement r ++ outs false .replacement rs := by simp [outs]
    rw [this, report_cons, ih, points, points, List.filterMap_append]
    congr 1
    cases r <;> simp [out1, report]

theorem outs_replacement_true (rs : List Res) : outs true .replacement rs = replaced (report rs) := by
  induction rs with
  | nil => rfl
  | cons r rs ih =>
    have : outs true .replacement (r :: rs) = out1 true .replacement r ++ outs true .replacement rs := by simp [outs]
    rw [this, report_cons, ih, replaced, replaced, List.map_append]
    congr 1
    cases r <;> simp [out1, report, Function.comp_def]

theorem outs_fatal (dec : Bool) (rs : List Res) : outs dec .fatal rs = points (report rs) := by
  induction rs with
  | nil => rfl
  | cons r rs ih =>
    have : outs dec .fatal (r :: rs) = out1 dec .fatal r ++ outs dec .fatal rs := by simp [outs]
    rw [this, report_cons, ih, points, points, List.filterMap_append]
    congr 1
    cases r <;> simp [out1, report]

theorem error_iff_report (rs : List Res) : (∃ r ∈ rs, ∃ cp, r = .error cp) ↔ none ∈ report rs := by
  simp only [report, List.mem_flatMap]
  constructor
  · rintro ⟨r, h, cp, rfl⟩; exact ⟨_, h, by simp⟩
  · rintro ⟨r, h, h2⟩
    refine ⟨r, h, ?_⟩
    cases r <;> simp at h2
    exact ⟨_, rfl⟩

end Verif.Proof.CoderRun
