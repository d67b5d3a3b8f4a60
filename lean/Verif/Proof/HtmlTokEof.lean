import Verif.Proof.HtmlTokGhost
import Verif.Proof.HtmlTokKeep
import Verif.Proof.HtmlTokConf
/- The token of the end of the file comes at the end, and once, unless the text ends with a carriage return. -/
namespace Verif.Proof.HtmlTokEof
open Verif.Spec.HtmlWatch (watch)
open Verif.Model.HtmlTok Verif.Model.HtmlInput Verif.Proof.HtmlTok Verif.Proof.HtmlTokGhost Verif.Proof.HtmlTokKeep Verif.Spec.HtmlTokBridge
open Verif.Spec.Infra (normNL)
variable {σ : Type}

/-- The stage without the token of the end of the file. -/
def noEof (S : Sink σ) : Sink σ := ⟨fun s t => match t with | .eof => s | t => S.emit s t, S.switch, S.node⟩

theorem act_some (S : Sink σ) (st : St) (m : M σ) (c : Nat) : act S st m (some c) = act (noEof S) st m (some c) := by
  cases st <;> rfl

theorem act_none (S : Sink σ) (st : St) (m : M σ) : act S st m none = act (noEof S) st m none ∨
    ∃ m2, act (noEof S) st m none = some (m2, false) ∧ act S st m none = some (emitEof S m2, false) ∧ m2.inp = m.inp := by
  cases st
  all_goals first | (left; rfl) | exact Or.inr ⟨_, rfl, rfl, rfl⟩

theorem after_some (S : Sink σ) (m : M σ) (c : Nat) : afterDoctypeName S m (some c) = afterDoctypeName (noEof S) m (some c) := rfl

/-- No token of the end of the file is on the record. -/
def Un (s : σ × List (σ × Tok)) : Prop := ∀ x ∈ s.2, x.2 ≠ .eof

theorem un_kept (S : Sink σ) : Kept Un (noEof (watch S)) := by
  intro s t h
  cases t with
  | eof => exact h
  | _ =>
    intro x hx
    rcases List.mem_append.mp hx with hx | hx
    · exact h x hx
    · rw [List.mem_singleton.mp hx]; simp

/-- There is none, or one at the end, and then the input is at its end, too. -/
def End (_ : List Nat) (m : M (σ × List (σ × Tok))) : Prop :=
  Un m.sink ∨ (m.inp.eofConsumed = true ∧ ∃ r a, m.sink.2 = r ++ [a] ∧ ∀ x ∈ r, x.2 ≠ .eof)

theorem end_eof {S : Sink σ} {l : List Nat} {m : M (σ × List (σ × Tok))} (h : Un m.sink) (he : m.inp.eofConsumed = true) :
    End l (emitEof (watch S) m) := Or.inr ⟨he, m.sink.2, _, rfl, h⟩

theorem step_end (S : Sink σ) (find : Find) (l : List Nat) (m m1 : M (σ × List (σ × Tok))) (h : End l m) (hr : Ready m)
    (hs : mstep (watch S) find m = some m1) : End l m1 := by
  have hU : Un m.sink := by
    rcases h with h | ⟨h, -⟩
    · exact h
    · have := hr.fresh
      rw [h] at this; cases this
  have hn : ∀ m2 c, next m = some (m2, c) → Un m2.sink ∧ (c = none → m2.inp.eofConsumed = true) := by
    intro m2 c e
    refine ⟨i_next hU e, fun hc => ?_⟩
    unfold next at e
    split at e
    · cases e
    · cases e
      split_ifs at hc with hq
      exact hq
  by_cases hp : special m.st = false
  · rw [mstep_plain _ _ _ hp] at hs
    split at hs
    · cases hs
    · next m2 c e =>
      obtain ⟨u, v⟩ := hn m2 c e
      have key : ∃ m' b, act (watch S) m.st m2 c = some (m', b) ∧ m1.sink = m'.sink ∧ (b = false → m1 = m') := by
        generalize act (watch S) m.st m2 c = r at hs
        rcases r with _ | ⟨m', _ | _⟩
        · cases hs
        · cases hs; exact ⟨_, _, rfl, rfl, fun _ => rfl⟩
        · cases hs; exact ⟨_, _, rfl, rfl, fun h => (by cases h)⟩
      obtain ⟨m', b, h1, h2, h3⟩ := key
      have k := k_act (un_kept S) u (st := m.st) (c := c)
      have fin : act (watch S) m.st m2 c = act (noEof (watch S)) m.st m2 c → End l m1 := by
        intro e
        rw [← e, h1] at k
        have : Un m1.sink := by rw [h2]; exact k _ _ rfl
        exact Or.inl this
      cases c with
      | some c => exact fin (act_some _ m.st m2 c)
      | none =>
        rcases act_none (watch S) m.st m2 with h4 | ⟨m3, h4, h5, h6⟩
        · exact fin h4
        · rw [h5] at h1
          cases h1
          rw [h3 rfl]
          rw [h4] at k
          exact end_eof (k _ _ rfl) (by rw [h6]; exact v rfl)
  unfold mstep at hs
  cases hst : m.st with
  | markupDecl => rw [hst] at hs; exact Or.inl (ko_markupDecl hU _ hs)
  | namedRef => rw [hst] at hs; exact Or.inl (ko_namedRef (S := noEof (watch S)) (un_kept S) hU _ hs)
  | numericEnd => rw [hst] at hs; exact Or.inl (ko_numericEnd (S := noEof (watch S)) (un_kept S) hU _ hs)
  | afterDoctypeName =>
    rw [hst] at hs
    dsimp only at hs
    split at hs
    · cases hs
    · next m2 c e =>
      obtain ⟨u, v⟩ := hn m2 c e
      cases c with
      | none =>
        cases hs
        refine end_eof ?_ (v rfl)
        intro x hx
        rcases List.mem_append.mp hx with hx | hx
        · exact u x hx
        · rw [List.mem_singleton.mp hx]; simp
      | some c =>
        rw [after_some] at hs
        split at hs
        · cases hs
        · next e2 => cases hs; exact Or.inl (k_afterDoctypeName (un_kept S) u _ e2)
        · next e2 _ => cases hs; exact Or.inl (k_afterDoctypeName (un_kept S) u _ ‹_›)
  | _ => rw [hst] at hp; exact absurd rfl hp

theorem end_rel (P : Nat → Prop) (S : Sink σ) (find : Find) : Rel (Chars P) (watch S) find End where
  step l m m1 h _ _ hr hs _ := step_end S find l m m1 h hr hs
  push c l m h he := by
    rcases h with h | ⟨h, h2⟩
    · exact Or.inl h
    · exact Or.inr ⟨h, h2⟩
  eof m h he := by
    rcases h with h | ⟨h, h2⟩
    · exact Or.inl h
    · exact Or.inr ⟨h, h2⟩

end Verif.Proof.HtmlTokEof
