import Verif.Proof.HtmlTokSim6
/-
Conformance of whole runs, and what is needed to refute it.
-/
namespace Verif.Proof.HtmlTok
open Verif.Model.HtmlTok Verif.Model.HtmlInput Verif.Model.Infra Verif.Proof.HtmlInput
open Verif.Spec.Infra (normNL)
open Verif.Spec.HtmlTok (steps start Refs)
variable {σ : Type}

theorem steps_add (E : Spec.HtmlTok.Env σ) (refs : Refs) (a b : Nat) (x : Spec.HtmlTok.C σ) :
    steps E refs (a + b) x = steps E refs b (steps E refs a x) := by
  induction a generalizing x with
  | zero => simp [steps]
  | succ a ih => rw [Nat.succ_add, steps, ih]; rfl

theorem steps_ended (E : Spec.HtmlTok.Env σ) (refs : Refs) (n : Nat) (x : Spec.HtmlTok.C σ) (h : x.ended = true) :
    steps E refs n x = x := by
  induction n with
  | zero => rfl
  | succ n ih => rw [steps, show Spec.HtmlTok.step E refs x = x by unfold Spec.HtmlTok.step; rw [h]; rfl]; exact ih

/-- A run ends in one way only. -/
theorem ended_unique (E : Spec.HtmlTok.Env σ) (refs : Refs) (x : Spec.HtmlTok.C σ) (a b : Nat) (ha : (steps E refs a x).ended = true)
    (hb : (steps E refs b x).ended = true) : steps E refs a x = steps E refs b x := by
  rcases Nat.le_total a b with h | h
  · obtain ⟨d, rfl⟩ := Nat.exists_eq_add_of_le h
    rw [steps_add, steps_ended _ _ _ _ ha]
  · obtain ⟨d, rfl⟩ := Nat.exists_eq_add_of_le h
    rw [steps_add, steps_ended _ _ _ _ hb]

/-- The run follows the standard's, and all its characters satisfy `P`. -/
def Along (P : Nat → Prop) (S : Sink σ) (refs : Refs) (x0 : Spec.HtmlTok.C σ) (l : List Nat) (m : M σ) : Prop :=
  Follows S refs x0 l m ∧ Chars P l m

/-- Whenever the standard looks up a name, so does the library, with the same result. -/
theorem along_text (P : Nat → Prop) (S : Sink σ) (hS : SwitchOk S) (find : Find) (refs : Refs) (hN : ∀ r ∈ refs, r.1.length ≤ 32)
    (x0 : Spec.HtmlTok.C σ) (hx : ∀ k, ¬ Trouble S (steps (envOf S) refs k x0))
    (hA : ∀ k s l, (steps (envOf S) refs k x0).st = .namedRef → (steps (envOf S) refs k x0).rest = s ++ l → (33 ≤ s.length ∨ l = []) →
      (∀ c ∈ s, P c) →
      ∃ r, find s = some r ∧ (r.map fun (n, a, b) => (n, if b ≠ 0 then [a, b] else [a])) = Spec.HtmlTok.longest refs s) :
    Text S find (Along P S refs x0) ∧ Rel (Along P S refs x0) S find (Follows S refs x0) := by
  have hlook : ∀ l m, Along P S refs x0 l m → Ready m → m.st = .namedRef →
      ∃ r, find m.inp.c = some r ∧ (r.map fun (n, a, b) => (n, if b ≠ 0 then [a, b] else [a])) = Spec.HtmlTok.longest refs m.inp.c := by
    rintro l m ⟨⟨k, h⟩, hc⟩ hr hs
    refine hA k m.inp.c l (by rw [h.core.st, hs]; rfl) h.rest ?_ hc.1
    by_cases he : m.inp.eof = true
    · exact Or.inr (h.eofl he)
    · left
      by_contra hh
      refine hr.free (Or.inr (Or.inr ⟨hs, ?_⟩))
      unfold fill
      rw [Bool.or_eq_false_iff, beq_eq_false_iff_ne]
      exact ⟨by simpa using he, by omega⟩
  have hrel := follows_rel (Along P S refs x0) S hS find refs hlook hN x0 hx
  refine ⟨⟨fun l => ⟨?_, ?_⟩, ?_, ?_⟩, hrel⟩
  · intro m m1 h hi hr hs g
    exact ⟨hrel.step l m m1 h.1 hi h hr hs g, fun c hc => h.2.1 c (g.suffix.subset hc), h.2.2⟩
  · intro m h hr hs
    obtain ⟨r, e, g⟩ := hlook l m h hr hs
    refine ⟨r, e, ?_⟩
    rintro n a b rfl
    exact (longestTo_mem g.symm).2
  · intro c l m h he
    exact ⟨hrel.push c l m h.1 he, chars_push h.2⟩
  · intro m h he
    exact ⟨hrel.eof m h.1 he, h.2⟩

theorem conforms (P : Nat → Prop) (S : Sink σ) (hS : SwitchOk S) (find : Find) (refs : Refs) (hN : ∀ r ∈ refs, r.1.length ≤ 32)
    (h10 : P 10) (s : σ) (l : List Nat) (hl : ∀ c ∈ l, P c) (hcr : l.getLast? ≠ some 13)
    (hA : ∀ k s' l', (steps (envOf S) refs k (start s (normNL l))).st = .namedRef →
      (steps (envOf S) refs k (start s (normNL l))).rest = s' ++ l' → (33 ≤ s'.length ∨ l' = []) → (∀ c ∈ s', P c) →
      ∃ r, find s' = some r ∧ (r.map fun (n, a, b) => (n, if b ≠ 0 then [a, b] else [a])) = Spec.HtmlTok.longest refs s')
    (hx : ∀ k, ¬ Trouble S (steps (envOf S) refs k (start s (normNL l)))) :
    ∃ m k, (∀ f, 24 * l.length + 39 ≤ f → tokenize S find f s l = some m) ∧
      m.sink = (steps (envOf S) refs k (start s (normNL l))).sink ∧
      ((∀ k, (steps (envOf S) refs k (start s (normNL l))).st ≠ .numericEnd) →
        (steps (envOf S) refs k (start s (normNL l))).ended = true) := by
  obtain ⟨hB, hR⟩ := along_text P S hS find refs hN _ hx hA
  obtain ⟨m, h1, h2⟩ := tokenize_ok _ S hS find hB _ hR s l (fun q => absurd q hcr)
    ⟨⟨0, start_sim S s (normNL l)⟩, chars_start h10 s hl⟩
  obtain ⟨⟨k, hk⟩, h4⟩ := h2 hcr ⟨0, start_sim S s (normNL l)⟩
  refine ⟨m, k, h1, hk.core.sink.symm, fun hn => ?_⟩
  rw [hk.ended]
  refine h4 ?_
  rintro l' m' ⟨j, hj⟩ he
  exact hn j (by rw [hj.core.st, he]; rfl)

theorem conforms_chars (P : Nat → Prop) (S : Sink σ) (hS : SwitchOk S) (find : Find) (refs : Refs) (hA : Agree P find refs)
    (hN : ∀ r ∈ refs, r.1.length ≤ 32) (h10 : P 10) (s : σ) (l : List Nat) (hl : ∀ c ∈ l, P c) (hcr : l.getLast? ≠ some 13)
    (hx : ∀ k, ¬ Trouble S (steps (envOf S) refs k (start s (normNL l)))) :
    ∃ m k, (∀ f, 24 * l.length + 39 ≤ f → tokenize S find f s l = some m) ∧
      m.sink = (steps (envOf S) refs k (start s (normNL l))).sink ∧
      ((∀ k, (steps (envOf S) refs k (start s (normNL l))).st ≠ .numericEnd) →
        (steps (envOf S) refs k (start s (normNL l))).ended = true) :=
  conforms P S hS find refs hN h10 s l hl hcr (fun _ _ _ _ _ _ h => hA _ h) hx

theorem total_chars (P : Nat → Prop) (S : Sink σ) (hS : SwitchOk S) (find : Find) (hF : FindOk P find) (h10 : P 10) (s : σ) (l : List Nat)
    (hl : ∀ c ∈ l, P c) : ∃ m, ∀ f, 24 * l.length + 39 ≤ f → tokenize S find f s l = some m := by
  obtain ⟨m, h, _⟩ := tokenize_ok (Chars P) S hS find (chars_text P S find hF) (fun _ _ => True)
    ⟨fun _ _ _ _ _ _ _ _ _ => trivial, fun _ _ _ _ _ => trivial, fun _ _ _ => trivial⟩ s l (fun _ => chars_late P) (chars_start h10 s hl)
  exact ⟨m, h⟩

/-- What holds up to the end of a run holds for ever. -/
theorem all_steps (E : Spec.HtmlTok.Env σ) (refs : Refs) (x : Spec.HtmlTok.C σ) (Q : Spec.HtmlTok.C σ → Prop) (n : Nat)
    (hn : (steps E refs n x).ended = true) (h : ∀ k < n + 1, Q (steps E refs k x)) (k : Nat) : Q (steps E refs k x) := by
  by_cases hk : k < n + 1
  · exact h k hk
  · obtain ⟨d, rfl⟩ : ∃ d, k = n + d := ⟨k - n, by omega⟩
    rw [steps_add, steps_ended _ _ _ _ hn]
    exact h n (by omega)

instance (S : Sink σ) (x : Spec.HtmlTok.C σ) : Decidable (Trouble S x) := by
  unfold Spec.HtmlTokBridge.Trouble; infer_instance

end Verif.Proof.HtmlTok
