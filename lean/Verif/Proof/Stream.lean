import Verif.Model.TextDecoder
import Verif.Proof.CoderRun
import Verif.Proof.Utf8Coder
import Mathlib.Tactic.ByContra
/- Streaming decoders: feeding bytes until the queue is empty. -/
namespace Verif.Proof.Stream
open Verif.Model.Coder Verif.Model.Legacy Verif.Model.TextDecoder Verif.Proof.CoderRun Verif.Proof.Utf8Coder

/-- A potential that every byte lowers, and what happens at the end of the queue. -/
structure Progress {σ : Type} (run : Run σ) (inv : σ → Prop) (W : Nat) (φ : σ → Nat) : Prop where
  step : ∀ st v r st' pre, inv st → run st (.val v) = some (r, st', pre) →
    ∃ pv : List Nat, pre = pv.map .val ∧ r ≠ .finished ∧ inv st' ∧ W * pv.length + φ st' < W + φ st
  flush : ∀ st r st' pre, inv st → run st .eoq = some (r, st', pre) →
    r = .finished ∨ ((∃ cp, r = .error cp) ∧ (pre = [] ∨ pre = [.eoq]) ∧ ∃ st2, run st' .eoq = some (.finished, st2, []))

/-- Steps until the bytes are used up. -/
inductive Feeds {σ : Type} (run : Run σ) : σ → List Nat → List Res → σ → Prop
  | nil (st : σ) : Feeds run st [] [] st
  | step {st st' st2 : σ} {v : Nat} {b pv : List Nat} {r : Res} {rs : List Res} :
      run st (.val v) = some (r, st', pv.map .val) → r ≠ .finished → Feeds run st' (pv ++ b) rs st2 →
      Feeds run st (v :: b) (r :: rs) st2

/-- Steps until an assertion fails. -/
inductive Fails {σ : Type} (run : Run σ) : σ → List Nat → List Res → Prop
  | here {st : σ} {v : Nat} {b : List Nat} : run st (.val v) = none → Fails run st (v :: b) []
  | step {st st' : σ} {v : Nat} {b pv : List Nat} {r : Res} {rs : List Res} :
      run st (.val v) = some (r, st', pv.map .val) → r ≠ .finished → Fails run st' (pv ++ b) rs →
      Fails run st (v :: b) (r :: rs)

section
variable {σ : Type} {run : Run σ}

theorem Feeds.append {st st2 st3 : σ} {a b : List Nat} {rs rs' : List Res} (h : Feeds run st a rs st2)
    (h' : Feeds run st2 b rs' st3) : Feeds run st (a ++ b) (rs ++ rs') st3 := by
  induction h with
  | nil => exact h'
  | step h1 h2 _ ih =>
    refine .step h1 h2 ?_
    have := ih h'
    rwa [List.append_assoc] at this

theorem Feeds.append_fails {st st2 : σ} {a b : List Nat} {rs rs' : List Res} (h : Feeds run st a rs st2)
    (h' : Fails run st2 b rs') : Fails run st (a ++ b) (rs ++ rs') := by
  induction h with
  | nil => exact h'
  | step h1 h2 _ ih =>
    refine .step h1 h2 ?_
    have := ih h'
    rwa [List.append_assoc] at this

theorem Fails.append {st : σ} {a : List Nat} {rs : List Res} (h : Fails run st a rs) (b : List Nat) :
    Fails run st (a ++ b) rs := by
  induction h with
  | here h => exact .here h
  | step h1 h2 _ ih =>
    refine .step h1 h2 ?_
    rwa [List.append_assoc] at ih

/-- Every input is used up or fails. -/
theorem total {inv : σ → Prop} {W : Nat} {φ : σ → Nat} (p : Progress run inv W φ) :
    ∀ (n : Nat) (st : σ) (b : List Nat), inv st → W * b.length + φ st ≤ n →
      (∃ rs st2, Feeds run st b rs st2 ∧ inv st2) ∨ ∃ rs, Fails run st b rs := by
  intro n
  induction n with
  | zero =>
    intro st b hi hn
    cases b with
    | nil => exact Or.inl ⟨[], st, .nil st, hi⟩
    | cons v b =>
      cases hr : run st (.val v) with
      | none => exact Or.inr ⟨[], .here hr⟩
      | some x =>
        obtain ⟨r, st', pre⟩ := x
        obtain ⟨pv, _, _, _, k⟩ := p.step st v r st' pre hi hr
        simp only [List.length_cons, Nat.mul_add, Nat.mul_one] at hn
        omega
  | succ n ih =>
    intro st b hi hn
    cases b with
    | nil => exact Or.inl ⟨[], st, .nil st, hi⟩
    | cons v b =>
      cases hr : run st (.val v) with
      | none => exact Or.inr ⟨[], .here hr⟩
      | some x =>
        obtain ⟨r, st', pre⟩ := x
        obtain ⟨pv, rfl, hf, hi', k⟩ := p.step st v r st' pre hi hr
        simp only [List.length_cons, Nat.mul_add, Nat.mul_one] at hn
        have hle : W * (pv ++ b).length + φ st' ≤ n := by
          rw [List.length_append, Nat.mul_add]; omega
        rcases ih st' (pv ++ b) hi' hle with ⟨rs, st2, f, hi2⟩ | ⟨rs, f⟩
        · exact Or.inl ⟨r :: rs, st2, .step hr hf f, hi2⟩
        · exact Or.inr ⟨r :: rs, .step hr hf f⟩

/-! ### The loop -/

/-- No error among the results, or errors do not stop. -/
def Quiet (mode : Mode) (rs : List Res) : Prop := mode ≠ .fatal ∨ ∀ r ∈ rs, ∀ cp, r ≠ .error cp

theorem loop_step {mode : Mode} {stream : Bool} {st st' : σ} {v : Nat} {b pv : List Nat} {r : Res}
    (h : run st (.val v) = some (r, st', pv.map .val)) (hf : r ≠ .finished) (hq : Quiet mode [r]) (fuel : Nat)
    (o : List Nat) (c : Bool) :
    loop run mode stream (fuel + 1) st (qq (v :: b)) (outAt o c) =
      loop run mode stream fuel st' (qq (pv ++ b)) (outAt (o ++ out1 false mode r) c) := by
  rw [loop, read_cons]
  dsimp only [Option.getD_some]
  rw [if_neg (by simp), processItem_cont (qq b) o c h hf (hq.imp id (fun h => h r (by simp)))]
  dsimp only
  congr 1
  simp [qq]

theorem loop_feeds {mode : Mode} {stream : Bool} {st st2 : σ} {b : List Nat} {rs : List Res} (h : Feeds run st b rs st2)
    (hq : Quiet mode rs) (fuel : Nat) (o : List Nat) (c : Bool) :
    loop run mode stream (rs.length + fuel) st (qq b) (outAt o c) =
      loop run mode stream fuel st2 (qq []) (outAt (o ++ outs false mode rs) c) := by
  induction h generalizing o with
  | nil => simp [outs]
  | @step st st' st2 v b pv r rs h1 h2 _ ih =>
    have e : (r :: rs).length + fuel = rs.length + fuel + 1 := by simp; omega
    rw [e, loop_step h1 h2 (hq.imp id (fun h x hx => h x (by simp at hx; simp [hx]))),
      ih (hq.imp id (fun h x hx => h x (by simp [hx])))]
    simp [outs]

theorem loop_error {stream : Bool} {st st' : σ} {v : Nat} {b : List Nat} {cp : Nat} {pre : List Item}
    (h : run st (.val v) = some (.error cp, st', pre)) (fuel : Nat) (out : Queue) :
    loop run .fatal stream (fuel + 1) st (qq (v :: b)) out = .stop none := by
  rw [loop, read_cons]
  dsimp only [Option.getD_some]
  rw [if_neg (by simp)]
  simp [processItem, h]

/-- In fatal mode the first error is an exception, whether the input is used up or fails later. -/
theorem loop_throws {stream : Bool} {st : σ} {b : List Nat} {rs : List Res}
    (h : (∃ st2, Feeds run st b rs st2) ∨ Fails run st b rs) (he : ∃ r ∈ rs, ∃ cp, r = .error cp) (fuel : Nat)
    (hf : rs.length ≤ fuel) (o : List Nat) (c : Bool) :
    loop run .fatal stream fuel st (qq b) (outAt o c) = .stop none := by
  induction rs generalizing st b fuel o with
  | nil => simp at he
  | cons r rs ih =>
    simp only [List.length_cons] at hf
    obtain ⟨k, rfl⟩ : ∃ k, fuel = k + 1 := ⟨fuel - 1, by omega⟩
    obtain ⟨v, b', pv, st', rfl, h1, h2, h3⟩ : ∃ v b' pv st', b = v :: b' ∧
        run st (.val v) = some (r, st', pv.map Item.val) ∧ r ≠ .finished ∧
        ((∃ st2, Feeds run st' (pv ++ b') rs st2) ∨ Fails run st' (pv ++ b') rs) := by
      rcases h with ⟨st2, h⟩ | h
      · cases h with
        | step h1 h2 h3 => exact ⟨_, _, _, _, rfl, h1, h2, Or.inl ⟨_, h3⟩⟩
      · cases h with
        | step h1 h2 h3 => exact ⟨_, _, _, _, rfl, h1, h2, Or.inr h3⟩
    by_cases hr : ∃ cp, r = .error cp
    · obtain ⟨cp, rfl⟩ := hr
      exact loop_error h1 k _
    · have hr' : ∀ cp, r ≠ .error cp := fun cp e => hr ⟨cp, e⟩
      rw [loop_step h1 h2 (Or.inr (by intro x hx; simp at hx; subst hx; exact hr'))]
      refine ih h3 ?_ k (by omega) _
      obtain ⟨x, hx, cp, e⟩ := he
      rcases List.mem_cons.mp hx with hx | hx
      · subst hx; exact absurd e (hr' cp)
      · exact ⟨x, hx, cp, e⟩

theorem loop_fails {mode : Mode} {stream : Bool} {st : σ} {b : List Nat} {rs : List Res} (h : Fails run st b rs)
    (hq : Quiet mode rs) (fuel : Nat) (hf : rs.length < fuel) (o : List Nat) (c : Bool) :
    loop run mode stream fuel st (qq b) (outAt o c) = .ub := by
  induction h generalizing fuel o with
  | @here st v b h =>
    obtain ⟨k, rfl⟩ : ∃ k, fuel = k + 1 := ⟨fuel - 1, by omega⟩
    rw [loop, read_cons]
    dsimp only [Option.getD_some]
    rw [if_neg (by simp)]
    simp [processItem, h]
  | @step st st' v b pv r rs h1 h2 _ ih =>
    simp only [List.length_cons] at hf
    obtain ⟨k, rfl⟩ : ∃ k, fuel = k + 1 := ⟨fuel - 1, by omega⟩
    rw [loop_step h1 h2 (hq.imp id (fun h x hx => h x (by simp at hx; simp [hx])))]
    exact ih (hq.imp id (fun h x hx => h x (by simp [hx]))) k (by omega) _

/-- At the end of the queue a stream waits. -/
theorem loop_wait {mode : Mode} {st : σ} (fuel : Nat) (out : Queue) :
    loop run mode true (fuel + 1) st (qq []) out = .stop (some (st, qq [], out)) := by
  rw [loop, read_nil]
  simp

end

end Verif.Proof.Stream
