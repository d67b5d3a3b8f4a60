import Verif.Proof.Matcher
/-
Property C23: string_matcher.
-/
namespace Verif.Props.Matcher
open Verif.Model.Matcher Verif.Proof.Matcher

/-- Pushing a text character by character, recording every answer. -/
def pushAll (m : Matcher) : List Nat → Option (Matcher × List Result)
  | [] => some (m, [])
  | c :: cs => (pushBack m c).bind fun r => (pushAll r.1 cs).map fun q => (q.1, r.2 :: q.2)

/-- C23. After any text `w` that was answered with `partial` at every character, the next character is answered with
`succeed` exactly when the whole text equals a candidate, with `failed` exactly when it is a prefix of no candidate, and
with `partial` otherwise; no candidate is read out of bounds. -/
theorem C23_answers (cs : List (List Nat)) (w : List Nat) (ch : Nat) (m : Matcher) (rs : List Result)
    (h : pushAll (mk cs) w = some (m, rs)) (hp : ∀ r ∈ rs, r = .more) :
    ∃ m' r, pushBack m ch = some (m', r) ∧ m'.seen = w ++ [ch] ∧
      (r = .succeed ↔ w ++ [ch] ∈ cs) ∧
      (r = .failed ↔ ∀ c ∈ cs, ¬ (w ++ [ch] <+: c)) := by
  have gen : ∀ (u w : List Nat) (m0 m : Matcher) (rs : List Result), Inv cs u m0 →
      pushAll m0 w = some (m, rs) → (∀ r ∈ rs, r = .more) → Inv cs (u ++ w) m := by
    intro u w
    induction w generalizing u with
    | nil => intro m0 m rs hi h _; simp only [pushAll, Option.some.injEq, Prod.mk.injEq] at h; simpa [← h.1] using hi
    | cons c w ih =>
      intro m0 m rs hi h hp
      obtain ⟨m1, r, e, _, _, _, _, hpi⟩ := push_spec hi c
      simp only [pushAll, e, Option.bind_some] at h
      cases hq : pushAll m1 w with
      | none => rw [hq] at h; cases h
      | some q =>
        rw [hq] at h
        simp only [Option.map_some, Option.some.injEq, Prod.mk.injEq] at h
        obtain ⟨rfl, rfl⟩ := h
        have := ih (u ++ [c]) m1 q.1 q.2 (hpi (hp r (by simp))) hq (fun x hx => hp x (by simp [hx]))
        simpa using this
  have hi := gen [] w (mk cs) m rs (inv_mk cs) h hp
  obtain ⟨m', r, e, a, _, b, c, _⟩ := push_spec (by simpa using hi) ch
  exact ⟨m', r, e, a, b, c⟩

example : pushAll (mk [[1, 2, 3], [1, 4], []]) [1] =
    some (⟨[⟨[1, 2, 3], false⟩, ⟨[1, 4], false⟩, ⟨[], true⟩], [1]⟩, [.more]) := by decide

/-- C23, pushing never reads out of bounds as long as the answers are `partial`: every proper run can be continued. -/
theorem C23_no_ub (cs : List (List Nat)) (w : List Nat) (hw : ∃ c ∈ cs, w <+: c)
    (hn : ∀ k, 0 < k → k ≤ w.length → w.take k ∉ cs) :
    ∃ m, pushAll (mk cs) w = some (m, List.replicate w.length .more) ∧ m.seen = w := by
  have gen : ∀ (u v : List Nat) (m0 : Matcher), Inv cs u m0 → (∃ c ∈ cs, u ++ v <+: c) →
      (∀ k, u.length < k → k ≤ (u ++ v).length → (u ++ v).take k ∉ cs) →
      ∃ m, pushAll m0 v = some (m, List.replicate v.length .more) ∧ m.seen = u ++ v := by
    intro u v
    induction v generalizing u with
    | nil => intro m0 hi _ _; exact ⟨m0, rfl, by simpa using hi.1⟩
    | cons c v ih =>
      intro m0 hi hw hn
      obtain ⟨m1, r, e, _, _, h1, h2, hpi⟩ := push_spec hi c
      obtain ⟨x, hx, hpx⟩ := hw
      have hr : r = .more := by
        cases r with
        | more => rfl
        | succeed =>
          exfalso
          have := h1.mp rfl
          apply hn (u.length + 1) (by omega) (by simp)
          rw [show u ++ c :: v = (u ++ [c]) ++ v by simp, List.take_left' (by simp)]
          exact this
        | failed =>
          exfalso
          refine h2.mp rfl x hx (List.IsPrefix.trans ?_ hpx)
          exact ⟨v, by simp⟩
      subst hr
      obtain ⟨m, e2, e3⟩ := ih (u ++ [c]) m1 (hpi rfl) ⟨x, hx, by simpa using hpx⟩ (by
        intro k hk1 hk2
        have := hn k (by simp at hk1; omega) (by simpa using hk2)
        simpa using this)
      exact ⟨m, by simp [pushAll, e, e2, List.replicate_succ], by simpa using e3⟩
  exact gen [] w (mk cs) (inv_mk cs) (by simpa using hw) (by simpa using hn)

example : (∃ c ∈ [[1, 2, 3]], [1, 2] <+: c) ∧ ∀ k, 0 < k → k ≤ 2 → [1, 2].take k ∉ [[1, 2, 3]] := by
  refine ⟨⟨[1, 2, 3], by simp, ⟨[3], rfl⟩⟩, ?_⟩
  intro k h1 h2
  rcases (by omega : k = 1 ∨ k = 2) with rfl | rfl <;> simp

/-- C23, `clear()`: whatever was pushed, with whatever answers, `clear()` gives back the freshly built matcher. -/
theorem C23_clear (cs : List (List Nat)) (w : List Nat) (m : Matcher) (rs : List Result)
    (h : pushAll (mk cs) w = some (m, rs)) : clear m = mk cs := by
  have hscan : ∀ pos ch size es n es' r, scan pos ch size es n = some (es', r) →
      es'.map (·.str) = es.map (·.str) := by
    intro pos ch size es
    induction es with
    | nil => intro n es' r h; simp only [scan, Option.some.injEq, Prod.mk.injEq] at h; simp [← h.1]
    | cons e es ih =>
      intro n es' r h
      have aux : ∀ (e' : Entry) n, e'.str = e.str →
          (scan pos ch size es n).map (fun r => (e' :: r.1, r.2)) = some (es', r) →
          es'.map (·.str) = (e :: es).map (·.str) := by
        intro e' n he h
        cases hq : scan pos ch size es n with
        | none => rw [hq] at h; cases h
        | some q =>
          rw [hq] at h
          simp only [Option.map_some, Option.some.injEq, Prod.mk.injEq] at h
          rw [← h.1, List.map_cons, he, ih _ _ _ hq, List.map_cons]
      simp only [scan] at h
      split at h
      · exact aux _ _ (by rfl) h
      · split at h
        · cases h
        · split at h
          · exact aux _ _ (by rfl) h
          · split at h
            · simp only [Option.some.injEq, Prod.mk.injEq] at h; rw [← h.1]
            · exact aux _ _ rfl h
  have hstr : ∀ (w : List Nat) (m0 m : Matcher) (rs : List Result), pushAll m0 w = some (m, rs) →
      m.entries.map (·.str) = m0.entries.map (·.str) := by
    intro w
    induction w with
    | nil => intro m0 m rs h; simp only [pushAll, Option.some.injEq, Prod.mk.injEq] at h; rw [h.1]
    | cons c w ih =>
      intro m0 m rs h
      simp only [pushAll] at h
      cases hq : pushBack m0 c with
      | none => rw [hq] at h; cases h
      | some q =>
        rw [hq, Option.bind_some] at h
        cases hq2 : pushAll q.1 w with
        | none => rw [hq2] at h; cases h
        | some q2 =>
          rw [hq2] at h
          simp only [Option.map_some, Option.some.injEq, Prod.mk.injEq] at h
          rw [← h.1, ih _ _ _ hq2]
          simp only [pushBack] at hq
          cases hs : scan m0.seen.length c (m0.seen ++ [c]).length m0.entries 0 with
          | none => rw [hs] at hq; cases hq
          | some s =>
            rw [hs] at hq
            simp only [Option.map_some, Option.some.injEq] at hq
            rw [← hq]
            exact hscan _ _ _ _ _ s.1 s.2 hs
  have := hstr w _ m rs h
  unfold clear
  have e : m.entries.map (fun x => ({ x with failed := false } : Entry)) =
      (m.entries.map (·.str)).map (⟨·, false⟩) := by simp
  rw [e, this]
  simp [mk]

example : ∃ m rs, pushAll (mk [[1, 2], [3]]) [3, 9, 9] = some (m, rs) := ⟨_, _, rfl⟩


end Verif.Props.Matcher
