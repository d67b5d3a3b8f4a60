import Verif.Model.Matcher
namespace Verif.Proof.Matcher
open Verif.Model.Matcher

/-- Invariant: an entry is marked failed exactly when the text seen is not a prefix of it. -/
def Good (w : List Nat) (e : Entry) : Prop := e.failed = true ↔ ¬ w <+: e.str

theorem prefix_snoc {w c : List Nat} {ch : Nat} :
    w ++ [ch] <+: c ↔ w <+: c ∧ c[w.length]? = some ch := by
  constructor
  · rintro ⟨t, rfl⟩
    exact ⟨⟨ch :: t, by simp⟩, by simp⟩
  · rintro ⟨⟨t, rfl⟩, h⟩
    cases t with
    | nil => simp at h
    | cons a t => simp at h; subst h; exact ⟨t, by simp⟩

theorem eq_of_prefix_length {w c : List Nat} (h : w <+: c) (hl : w.length = c.length) : w = c :=
  List.IsPrefix.eq_of_length h hl

def live (w : List Nat) (es : List Entry) : Nat := (es.filter fun e => decide (w <+: e.str)).length

theorem scan_spec (w : List Nat) (ch : Nat) (es : List Entry) (n : Nat) (hg : ∀ e ∈ es, Good w e) :
    ∃ es' k b, scan w.length ch (w ++ [ch]).length es n = some (es', k, b) ∧
      es'.map (·.str) = es.map (·.str) ∧
      (b = true ↔ w ++ [ch] ∈ es.map (·.str)) ∧
      (b = false → (∀ e ∈ es', Good (w ++ [ch]) e) ∧
        k ≤ n + es.length ∧ (k = n + es.length ↔ ∀ e ∈ es, ¬ (w ++ [ch] <+: e.str))) := by
  induction es generalizing n with
  | nil => exact ⟨[], n, false, rfl, rfl, by simp, by simp⟩
  | cons e es ih =>
    have he := hg e (by simp)
    have hes : ∀ e ∈ es, Good w e := fun x hx => hg x (by simp [hx])
    have fail : ¬ (w ++ [ch] <+: e.str) →
        ∃ es' k b, (scan w.length ch (w ++ [ch]).length es (n + 1)).map
            (fun r => (({ e with failed := true } : Entry) :: r.1, r.2)) = some (es', k, b) ∧
          es'.map (·.str) = (e :: es).map (·.str) ∧
          (b = true ↔ w ++ [ch] ∈ (e :: es).map (·.str)) ∧
          (b = false → (∀ e ∈ es', Good (w ++ [ch]) e) ∧
            k ≤ n + (e :: es).length ∧
            (k = n + (e :: es).length ↔ ∀ x ∈ e :: es, ¬ (w ++ [ch] <+: x.str))) := by
      intro hnp
      obtain ⟨es', k, b, h1, h2, h3, h4⟩ := ih (n + 1) hes
      refine ⟨_, k, b, by rw [h1]; rfl, by simp [h2], ?_, ?_⟩
      · rw [h3]
        simp only [List.map_cons, List.mem_cons]
        constructor
        · exact Or.inr
        · rintro (h | h)
          · exact absurd (h ▸ List.prefix_rfl) hnp
          · exact h
      · intro hb
        obtain ⟨g, hk, hk2⟩ := h4 hb
        refine ⟨?_, by simp only [List.length_cons]; omega, ?_⟩
        · intro x hx
          simp only [List.mem_cons] at hx
          rcases hx with rfl | hx
          · simp [Good, hnp]
          · exact g x hx
        · simp only [List.length_cons, List.mem_cons, forall_eq_or_imp]
          rw [show n + (es.length + 1) = n + 1 + es.length by omega, hk2]
          simp [hnp]
    simp only [scan]
    split
    · rename_i hc
      apply fail
      rw [prefix_snoc]
      rintro ⟨hp, hx⟩
      simp only [Bool.or_eq_true, beq_iff_eq] at hc
      rcases hc with hc | hc
      · exact he.mp hc hp
      · rw [List.getElem?_eq_none (by omega)] at hx; cases hx
    · rename_i hc
      simp only [Bool.or_eq_true, beq_iff_eq, not_or] at hc
      have hp : w <+: e.str := by
        exact Classical.byContradiction fun hn => hc.1 (he.mpr hn)
      have hlt : w.length < e.str.length := by
        have := hp.length_le; omega
      split
      · rename_i hx; rw [List.getElem?_eq_none_iff] at hx; omega
      · rename_i c hx
        split
        · rename_i hne
          apply fail
          rw [prefix_snoc]
          rintro ⟨_, h⟩
          rw [hx] at h; exact hne (by simpa using h)
        · rename_i heq
          have heq : c = ch := by simpa using heq
          subst heq
          have hpre : w ++ [c] <+: e.str := prefix_snoc.mpr ⟨hp, hx⟩
          split
          · rename_i hl
            have := eq_of_prefix_length hpre hl
            exact ⟨_, _, true, rfl, rfl, by simp [this], by simp⟩
          · rename_i hl
            obtain ⟨es', k, b, h1, h2, h3, h4⟩ := ih n hes
            refine ⟨_, k, b, by rw [h1]; rfl, by simp [h2], ?_, ?_⟩
            · rw [h3]
              simp only [List.map_cons, List.mem_cons]
              constructor
              · exact Or.inr
              · rintro (h | h)
                · exact absurd (by rw [h]) hl
                · exact h
            · intro hb
              obtain ⟨g, hk, _⟩ := h4 hb
              refine ⟨?_, by simp only [List.length_cons]; omega, ?_⟩
              · intro x hx
                simp only [List.mem_cons] at hx
                rcases hx with rfl | hx
                · simp only [Good]; constructor
                  · intro h; exact absurd h hc.1
                  · intro h; exact absurd hpre h
                · exact g x hx
              · simp only [List.length_cons]
                constructor
                · intro h; omega
                · intro h; exact absurd hpre (h e (by simp))

/-- State after pushing text with only `partial` answers. -/
def Inv (cs : List (List Nat)) (w : List Nat) (m : Matcher) : Prop :=
  m.seen = w ∧ m.entries.map (·.str) = cs ∧ ∀ e ∈ m.entries, Good w e

theorem inv_mk (cs : List (List Nat)) : Inv cs [] (mk cs) := by
  refine ⟨rfl, by simp [mk, Function.comp_def], ?_⟩
  simp [mk, Good]

theorem push_spec {cs : List (List Nat)} {w : List Nat} {m : Matcher} (h : Inv cs w m) (ch : Nat) :
    ∃ m' r, pushBack m ch = some (m', r) ∧ m'.seen = w ++ [ch] ∧ m'.entries.map (·.str) = cs ∧
      (r = .succeed ↔ w ++ [ch] ∈ cs) ∧
      (r = .failed ↔ ∀ c ∈ cs, ¬ (w ++ [ch] <+: c)) ∧
      (r = .more → Inv cs (w ++ [ch]) m') := by
  obtain ⟨hs, hc, hg⟩ := h
  obtain ⟨es', k, b, h1, h2, h3, h4⟩ := scan_spec w ch m.entries 0 hg
  subst hs
  simp only [pushBack, h1, Option.map_some]
  refine ⟨_, _, rfl, rfl, by rw [← hc, ← h2], ?_⟩
  rw [← hc]
  cases b with
  | true =>
    simp only [if_true, true_iff, reduceCtorEq, false_iff, false_implies, and_true]
    have := h3.mp rfl
    refine ⟨this, ?_⟩
    intro h
    exact h _ this List.prefix_rfl
  | false =>
    obtain ⟨g, hk, hk2⟩ := h4 rfl
    have hn : m.seen ++ [ch] ∉ m.entries.map (·.str) := by rw [← h3]; simp
    simp only [Bool.false_eq_true, if_false]
    simp only [Nat.zero_add] at hk hk2
    by_cases hkl : k = m.entries.length
    · rw [if_pos hkl]
      refine ⟨by simp [hn], ?_, by simp⟩
      simp only [true_iff, List.mem_map]
      rintro c ⟨e, he, rfl⟩
      exact hk2.mp hkl e he
    · rw [if_neg hkl]
      refine ⟨by simp [hn], ?_, fun _ => ⟨rfl, h2, g⟩⟩
      simp only [reduceCtorEq, false_iff]
      intro h
      exact hkl (hk2.mpr fun e he => h _ (List.mem_map_of_mem he))

end Verif.Proof.Matcher
