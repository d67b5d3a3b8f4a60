import Verif.Proof.Stream
import Mathlib.Tactic.SplitIfs
import Mathlib.Tactic.Push
/- Every decoder makes progress. -/
namespace Verif.Proof.StreamCoders
open Verif.Model.Coder Verif.Model.Table Verif.Model.Tables Verif.Model.Legacy Verif.Proof.Stream

/-- Closes the comparison of two potentials. -/
macro "pot" : tactic => `(tactic| first | (simp; done) | (simp; omega) | (simp; split <;> omega) | (simp; split_ifs <;> omega))

/-- What one step must give. -/
def Good {σ : Type} (inv : σ → Prop) (W : Nat) (φ : σ → Nat) (st : σ) (x : Option (Res × σ × List Item)) : Prop :=
  match x with
  | none => True
  | some (r, st', pre) => ∃ pv : List Nat, pre = pv.map .val ∧ r ≠ .finished ∧ inv st' ∧ W * pv.length + φ st' < W + φ st

theorem good_none {σ : Type} {inv : σ → Prop} {W : Nat} {φ : σ → Nat} {st : σ} : Good inv W φ st none := trivial

theorem good0 {σ : Type} {inv : σ → Prop} {W : Nat} {φ : σ → Nat} {st st' : σ} {r : Res} (h : r ≠ .finished) (hi : inv st')
    (hp : φ st' < W + φ st) : Good inv W φ st (some (r, st', [])) := ⟨[], rfl, h, hi, by simpa using hp⟩

theorem good1 {σ : Type} {inv : σ → Prop} {W : Nat} {φ : σ → Nat} {st st' : σ} {r : Res} {a : Nat} (h : r ≠ .finished)
    (hi : inv st') (hp : φ st' < φ st) : Good inv W φ st (some (r, st', [.val a])) :=
  ⟨[a], rfl, h, hi, by simp only [List.length_cons, List.length_nil]; omega⟩

theorem good2 {σ : Type} {inv : σ → Prop} {W : Nat} {φ : σ → Nat} {st st' : σ} {r : Res} {a b : Nat} (h : r ≠ .finished)
    (hi : inv st') (hp : W + φ st' < φ st) : Good inv W φ st (some (r, st', [.val a, .val b])) :=
  ⟨[a, b], rfl, h, hi, by simp only [List.length_cons, List.length_nil]; omega⟩

theorem good3 {σ : Type} {inv : σ → Prop} {W : Nat} {φ : σ → Nat} {st st' : σ} {r : Res} {a b c : Nat} (h : r ≠ .finished)
    (hi : inv st') (hp : 2 * W + φ st' < φ st) : Good inv W φ st (some (r, st', [.val a, .val b, .val c])) :=
  ⟨[a, b, c], rfl, h, hi, by simp only [List.length_cons, List.length_nil]; omega⟩

/-- One or no byte is put back. -/
theorem good01 {σ : Type} {inv : σ → Prop} {W : Nat} {φ : σ → Nat} {st st' : σ} {r : Res} {a : Nat} {c : Prop} [Decidable c]
    (h : r ≠ .finished) (hi : inv st') (hp : φ st' < φ st) :
    Good inv W φ st (some (r, st', if c then [.val a] else [])) := by
  split
  · exact good1 h hi hp
  · exact good0 h hi (by omega)

theorem mk {σ : Type} {run : Run σ} {inv : σ → Prop} {W : Nat} {φ : σ → Nat}
    (h1 : ∀ st v, inv st → Good inv W φ st (run st (.val v)))
    (h2 : ∀ st r st' pre, inv st → run st .eoq = some (r, st', pre) →
      r = .finished ∨ ((∃ cp, r = .error cp) ∧ (pre = [] ∨ pre = [.eoq]) ∧
        ∃ st2, run st' .eoq = some (.finished, st2, []))) : Progress run inv W φ where
  step st v r st' pre hi h := by
    have := h1 st v hi
    rw [h] at this
    exact this
  flush := h2

theorem single (t : Table) : Progress (singleD t) (fun _ => True) 1 (fun _ => 0) := by
  refine mk (fun st v _ => ?_) (fun st r st' pre _ h => ?_)
  · simp only [singleD]
    split
    · exact good0 (by simp) trivial (by pot)
    · split
      · exact good0 (by simp [Res.err]) trivial (by pot)
      · exact good0 (by simp) trivial (by pot)
  · simp only [singleD, Option.some.injEq, Prod.mk.injEq] at h
    exact Or.inl h.1.symm

theorem user : Progress userDefinedD (fun _ => True) 1 (fun _ => 0) := by
  refine mk (fun st v _ => ?_) (fun st r st' pre _ h => ?_)
  · simp only [userDefinedD]
    split <;> exact good0 (by simp) trivial (by pot)
  · simp only [userDefinedD, Option.some.injEq, Prod.mk.injEq] at h
    exact Or.inl h.1.symm

theorem utf8 : Progress utf8D (fun _ => True) 2 (fun s => if s.needed = 0 then 0 else 1) := by
  refine mk (fun st v _ => ?_) (fun st r st' pre _ h => ?_)
  · simp only [utf8D]
    by_cases h0 : st.needed = 0
    · rw [if_pos h0]
      split
      · exact good0 (by simp) trivial (by pot)
      · split
        · exact good0 (by simp) trivial (by pot)
        · split
          · exact good0 (by simp) trivial (by pot)
          · split
            · exact good0 (by simp) trivial (by pot)
            · exact good0 (by simp [Res.err]) trivial (by pot)
    · rw [if_neg h0]
      split
      · exact good1 (by simp [Res.err]) trivial (by simp [h0])
      · split
        · exact good0 (by simp) trivial (by simp [h0])
        · exact good0 (by simp) trivial (by simp [h0])
  · simp only [utf8D] at h
    split at h
    · simp only [Option.some.injEq, Prod.mk.injEq] at h
      obtain ⟨rfl, rfl, rfl⟩ := h
      exact Or.inr ⟨⟨_, rfl⟩, Or.inl rfl, _, by simp [utf8D]; rfl⟩
    · simp only [Option.some.injEq, Prod.mk.injEq] at h
      exact Or.inl h.1.symm

/-- Two-byte decoders whose state is the lead byte. -/
theorem lead2 {run : Run Nat} (h1 : ∀ s v, Good (fun _ => True) 2 (fun s => if s = 0 then 0 else 1) s (run s (.val v)))
    (h2 : ∀ s, run s .eoq = if s ≠ 0 then some (.err, 0, []) else some (.finished, s, [])) :
    Progress run (fun _ => True) 2 (fun s => if s = 0 then 0 else 1) := by
  refine mk (fun st v _ => h1 st v) (fun st r st' pre _ h => ?_)
  rw [h2] at h
  split at h
  · simp only [Option.some.injEq, Prod.mk.injEq] at h
    obtain ⟨rfl, rfl, rfl⟩ := h
    exact Or.inr ⟨⟨_, rfl⟩, Or.inl rfl, 0, by rw [h2]; rfl⟩
  · simp only [Option.some.injEq, Prod.mk.injEq] at h
    exact Or.inl h.1.symm

theorem kr : Progress eucKrD (fun _ => True) 2 (fun s => if s = 0 then 0 else 1) := by
  refine lead2 (fun s v => ?_) (fun s => rfl)
  simp only [eucKrD]
  by_cases h0 : s = 0
  · rw [if_neg (by simp [h0])]
    split
    · exact good0 (by simp) trivial (by pot)
    · split
      · exact good0 (by simp) trivial (by simp [h0]; split <;> omega)
      · exact good0 (by simp [Res.err]) trivial (by pot)
  · rw [if_pos h0]
    split
    · exact good0 (by simp) trivial (by pot)
    · exact good01 (by simp [Res.err]) trivial (by simp [h0])

theorem sjis : Progress sjisD (fun _ => True) 2 (fun s => if s = 0 then 0 else 1) := by
  refine lead2 (fun s v => ?_) (fun s => rfl)
  simp only [sjisD]
  by_cases h0 : s = 0
  · rw [if_neg (by simp [h0])]
    split
    · exact good0 (by simp) trivial (by pot)
    · split
      · exact good0 (by simp) trivial (by pot)
      · split
        · exact good0 (by simp) trivial (by simp [h0]; split <;> omega)
        · exact good0 (by simp [Res.err]) trivial (by pot)
  · rw [if_pos h0]
    split
    · split
      · exact good0 (by simp) trivial (by pot)
      · split
        · exact good0 (by simp) trivial (by pot)
        · exact good01 (by simp [Res.err]) trivial (by simp [h0])
    · exact good01 (by simp [Res.err]) trivial (by simp [h0])

theorem big5 : Progress big5D (fun _ => True) 2 (fun s => if s = 0 then 0 else 1) := by
  refine lead2 (fun s v => ?_) (fun s => rfl)
  simp only [big5D]
  by_cases h0 : s = 0
  · rw [if_neg (by simp [h0])]
    split
    · exact good0 (by simp) trivial (by pot)
    · split
      · exact good0 (by simp) trivial (by simp [h0]; split <;> omega)
      · exact good0 (by simp [Res.err]) trivial (by pot)
  · rw [if_pos h0]
    repeat' split
    all_goals first
      | exact good0 (by simp [Res.err]) trivial (by pot)
      | exact good1 (by simp [Res.err]) trivial (by simp [h0])

theorem eucJp : Progress eucJpD (fun _ => True) 2 (fun s => if s.lead = 0 then 0 else 1) := by
  refine mk (fun st v _ => ?_) (fun st r st' pre _ h => ?_)
  · simp only [eucJpD]
    split
    · exact good0 (by simp) trivial (by pot)
    · split
      · rename_i h
        exact good0 (by simp) trivial (by simp [h.1]; split <;> omega)
      · split
        · rename_i h0
          split
          · exact good0 (by simp) trivial (by pot)
          · exact good01 (by simp [Res.err]) trivial (by simp [h0])
        · split
          · exact good0 (by simp) trivial (by pot)
          · split
            · exact good0 (by simp) trivial (by pot)
            · exact good0 (by simp [Res.err]) trivial (by pot)
  · simp only [eucJpD] at h
    split at h
    · simp only [Option.some.injEq, Prod.mk.injEq] at h
      obtain ⟨rfl, rfl, rfl⟩ := h
      exact Or.inr ⟨⟨_, rfl⟩, Or.inl rfl, _, by simp [eucJpD]; rfl⟩
    · simp only [Option.some.injEq, Prod.mk.injEq] at h
      exact Or.inl h.1.symm

/-- Bytes held back by the gb18030 decoder. -/
def gbφ (s : GbD) : Nat := if s.third ≠ 0 then 9 else if s.second ≠ 0 then 6 else if s.first ≠ 0 then 3 else 0

theorem gb : Progress gbD (fun _ => True) 4 gbφ := by
  refine mk (fun st v _ => ?_) (fun st r st' pre _ h => ?_)
  · simp only [gbD]
    by_cases h3 : st.third ≠ 0
    · rw [if_pos h3]
      have hs : gbφ st = 9 := by simp [gbφ, h3]
      have h0 : gbφ ⟨0, 0, 0⟩ = 0 := rfl
      split
      · exact good3 (by simp [Res.err]) trivial (by rw [hs, h0]; omega)
      · split
        · exact good_none
        · exact good0 (by simp [Res.err]) trivial (by rw [hs, h0]; omega)
        · exact good0 (by simp) trivial (by rw [hs, h0]; omega)
    · rw [if_neg h3]
      by_cases h2 : st.second ≠ 0
      · rw [if_pos h2]
        have hs : gbφ st = 6 := by simp [gbφ, h3, h2]
        split
        · exact good0 (by simp) trivial (by rw [hs]; simp only [gbφ]; split_ifs <;> omega)
        · exact good2 (by simp [Res.err]) trivial (by rw [hs]; simp only [gbφ, if_neg h3]; simp)
      · rw [if_neg h2]
        by_cases h1 : st.first ≠ 0
        · rw [if_pos h1]
          have hs : gbφ st = 3 := by simp [gbφ, h3, h2, h1]
          have h0 : gbφ { st with first := 0 } = 0 := by simp only [gbφ, if_neg h3, if_neg h2]; simp
          split
          · exact good0 (by simp) trivial (by rw [hs]; simp only [gbφ, if_neg h3]; split_ifs <;> omega)
          · split
            · exact good0 (by simp) trivial (by rw [h0, hs]; omega)
            · exact good01 (by simp [Res.err]) trivial (by rw [h0, hs]; omega)
        · rw [if_neg h1]
          split
          · exact good0 (by simp) trivial (by omega)
          · split
            · exact good0 (by simp) trivial (by omega)
            · split
              · exact good0 (by simp) trivial (by simp only [gbφ, if_neg h3, if_neg h2]; split_ifs <;> omega)
              · exact good0 (by simp [Res.err]) trivial (by omega)
  · simp only [gbD] at h
    split at h
    · simp only [Option.some.injEq, Prod.mk.injEq] at h
      exact Or.inl h.1.symm
    · simp only [Option.some.injEq, Prod.mk.injEq] at h
      obtain ⟨rfl, rfl, rfl⟩ := h
      exact Or.inr ⟨⟨_, rfl⟩, Or.inl rfl, ⟨0, 0, 0⟩, rfl⟩

/-- Bytes held back by the UTF-16 decoder. -/
def u16φ (s : Utf16D) : Nat := (if s.lead.isSome then 1 else 0) + (if s.surrogate.isSome then 2 else 0)

theorem utf16 (be : Bool) : Progress (utf16D be) (fun _ => True) 2 u16φ := by
  refine mk (fun st v _ => ?_) (fun st r st' pre _ h => ?_)
  · obtain ⟨l, s⟩ := st
    cases l with
    | none =>
      simp only [utf16D]
      exact good0 (by simp) trivial (by simp [u16φ])
    | some l =>
      cases s with
      | none =>
        simp only [utf16D]
        repeat' split
        all_goals first
          | exact good0 (by simp [Res.err]) trivial (by simp [u16φ])
      | some s =>
        simp only [utf16D]
        repeat' split
        all_goals first
          | exact good0 (by simp) trivial (by simp [u16φ])
          | exact good2 (by simp [Res.err]) trivial (by simp [u16φ])
  · simp only [utf16D] at h
    split at h
    · simp only [Option.some.injEq, Prod.mk.injEq] at h
      obtain ⟨rfl, rfl, rfl⟩ := h
      exact Or.inr ⟨⟨_, rfl⟩, Or.inl rfl, ⟨none, none⟩, rfl⟩
    · simp only [Option.some.injEq, Prod.mk.injEq] at h
      exact Or.inl h.1.symm

/-- The output state of the ISO-2022-JP decoder is a character set. -/
def Set (s : JpState) : Prop := s = .ascii ∨ s = .roman ∨ s = .katakana ∨ s = .lead

def jpφ (s : JpD) : Nat := match s.state with
  | .escStart => 2
  | .esc => 4
  | _ => 0

theorem jpφ_set {s : JpD} (h : Set s.state) : jpφ s = 0 := by
  unfold jpφ
  rcases h with h | h | h | h <;> rw [h]

theorem escapeTo_set {l b : Nat} {s : JpState} (h : escapeTo l b = some s) : Set s := by
  unfold escapeTo at h
  split_ifs at h <;> cases h <;> simp [Set]

theorem set_eoq {s : JpD} (h : Set s.state) : jpD s .eoq = some (.finished, s, []) := by
  rcases h with h | h | h | h <;> simp only [jpD, h]

theorem jp : Progress jpD (fun s => Set s.output) 3 jpφ := by
  refine mk (fun st v hi => ?_) (fun st r st' pre hi h => ?_)
  · cases hs : st.state with
    | ascii =>
      simp only [jpD, hs]
      split
      · exact good0 (by simp) hi (by simp [jpφ, hs])
      · split
        · exact good0 (by simp) hi (by simp [jpφ, hs])
        · exact good0 (by simp [Res.err]) hi (by simp [jpφ, hs])
    | roman =>
      simp only [jpD, hs]
      split
      · exact good0 (by simp) hi (by simp [jpφ, hs])
      · split
        · exact good0 (by simp) hi (by simp [jpφ, hs])
        · split
          · exact good0 (by simp) hi (by simp [jpφ, hs])
          · split
            · exact good0 (by simp) hi (by simp [jpφ, hs])
            · exact good0 (by simp [Res.err]) hi (by simp [jpφ, hs])
    | katakana =>
      simp only [jpD, hs]
      split
      · exact good0 (by simp) hi (by simp [jpφ, hs])
      · split
        · exact good0 (by simp) hi (by simp [jpφ, hs])
        · exact good0 (by simp [Res.err]) hi (by simp [jpφ, hs])
    | lead =>
      simp only [jpD, hs]
      split
      · exact good0 (by simp) hi (by simp [jpφ, hs])
      · split
        · exact good0 (by simp) hi (by simp [jpφ, hs])
        · exact good0 (by simp [Res.err]) hi (by simp [jpφ, hs])
    | trail =>
      simp only [jpD, hs]
      split
      · exact good0 (by simp [Res.err]) hi (by simp [jpφ, hs])
      · split
        · split
          · exact good0 (by simp [Res.err]) hi (by simp [jpφ, hs])
          · exact good0 (by simp) hi (by simp [jpφ, hs])
        · exact good0 (by simp [Res.err]) hi (by simp [jpφ, hs])
    | escStart =>
      have p : jpφ st = 2 := by unfold jpφ; rw [hs]
      simp only [jpD, hs]
      split
      · exact good0 (by simp) hi (by simp [jpφ, hs])
      · refine good1 (by simp [Res.err]) hi ?_
        rw [jpφ_set (s := { st with flag := false, state := st.output }) hi, p]; omega
    | esc =>
      have p : jpφ st = 4 := by unfold jpφ; rw [hs]
      simp only [jpD, hs]
      split
      · rename_i s he
        refine good0 ?_ (escapeTo_set he) ?_
        · split <;> simp [Res.err]
        · rw [jpφ_set (s := ⟨s, s, 0, true⟩) (escapeTo_set he), p]; omega
      · refine good2 (by simp [Res.err]) hi ?_
        rw [jpφ_set (s := ⟨st.output, st.output, 0, false⟩) hi, p]; omega
  · cases hs : st.state with
    | ascii | roman | katakana | lead =>
      rw [set_eoq (by rw [hs]; simp [Set])] at h
      simp only [Option.some.injEq, Prod.mk.injEq] at h
      exact Or.inl h.1.symm
    | trail =>
      simp only [jpD, hs, Option.some.injEq, Prod.mk.injEq] at h
      obtain ⟨rfl, rfl, rfl⟩ := h
      exact Or.inr ⟨⟨_, rfl⟩, Or.inr rfl, _, set_eoq (by simp [Set])⟩
    | escStart =>
      simp only [jpD, hs, Option.some.injEq, Prod.mk.injEq] at h
      obtain ⟨rfl, rfl, rfl⟩ := h
      exact Or.inr ⟨⟨_, rfl⟩, Or.inl rfl, _, set_eoq hi⟩
    | esc => simp only [jpD, hs] at h; cases h

/-- A decoder with a potential. -/
def Fits (c : Coder) : Prop := ∃ inv W φ, Progress c.run inv W φ ∧ inv c.init

theorem fits_single (t : Table) : Fits ⟨Unit, (), singleD t⟩ := ⟨_, _, _, single t, trivial⟩

/-- Every decoder but the replacement decoder. -/
theorem all (e : Enc) (he : e ≠ .replacement) : Fits (decoderOf e) := by
  cases e with
  | replacement => exact absurd rfl he
  | UTF_8 => exact ⟨_, _, _, utf8, trivial⟩
  | GBK => exact ⟨_, _, _, gb, trivial⟩
  | gb18030 => exact ⟨_, _, _, gb, trivial⟩
  | Big5 => exact ⟨_, _, _, big5, trivial⟩
  | EUC_JP => exact ⟨_, _, _, eucJp, trivial⟩
  | ISO_2022_JP => exact ⟨_, _, _, jp, Or.inl rfl⟩
  | Shift_JIS => exact ⟨_, _, _, sjis, trivial⟩
  | EUC_KR => exact ⟨_, _, _, kr, trivial⟩
  | UTF_16BE => exact ⟨_, _, _, utf16 true, trivial⟩
  | UTF_16LE => exact ⟨_, _, _, utf16 false, trivial⟩
  | x_user_defined => exact ⟨_, _, _, user, trivial⟩
  | _ => simp only [decoderOf]; exact fits_single _

end Verif.Proof.StreamCoders
