import Verif.Proof.TrieBuild
import Verif.Props.TrieIO
/-
Property C05: bulk assignment.
-/
namespace Verif.Props.TrieBulk
open Verif.Spec Verif.Spec.KeyMap Verif.Model.Trie Verif.Proof.Trie Verif.Props.Trie

/-- Inserting the strings of `L` one by one. -/
def oneByOne (L : List (List Nat)) : List Op := L.map fun k => .insert k 0

/-- C05, full statement: after `assign(L)` and any later operations, `size` and `contains` are those of a trie in which
the strings were inserted one by one. -/
def C05_statement : Prop := ∀ L : List (List Nat), (∀ k ∈ L, Bytes k) → ∀ later : List Op, (∀ op ∈ later, op.Ok) →
  ∃ h h', Base.assign L = some h ∧ later.foldlM baseStep h = some h' ∧
    Base.size h' = (run (oneByOne L ++ later)).length ∧
    ∀ k, Bytes k → Base.contains h' k = some (decide (k ∈ (run (oneByOne L ++ later)).map Prod.fst))

/-- Meaning of the specification without later operations. -/
theorem C05_spec (L : List (List Nat)) (k : List Nat) :
    k ∈ (run (oneByOne L)).map Prod.fst ↔ k ∈ L ∧ k ≠ [] := by
  unfold run oneByOne
  have gen : ∀ (L : List (List Nat)) (m : KMap), k ∈ ((L.map fun k => Op.insert k 0).foldl step m).map Prod.fst ↔
      (k ∈ L ∧ k ≠ []) ∨ k ∈ m.map Prod.fst := by
    intro L
    induction L with
    | nil => intro m; simp
    | cons a L ih =>
      intro m
      rw [List.map_cons, List.foldl_cons, ih]
      by_cases h0 : a = [] ∨ (KeyMap.get m a).isSome = true
      · have : step m (.insert a 0) = m := by simp only [step, if_pos h0]
        rw [this]
        constructor
        · rintro (⟨w, w'⟩ | w)
          · exact Or.inl ⟨by simp [w], w'⟩
          · exact Or.inr w
        · rintro (⟨w, w'⟩ | w)
          · rcases List.mem_cons.mp w with rfl | w
            · rcases h0 with h0 | h0
              · exact absurd h0 w'
              · exact Or.inr ((Verif.Props.TrieWide.mem_keys _ _).mp h0)
            · exact Or.inl ⟨w, w'⟩
          · exact Or.inr w
      · have : step m (.insert a 0) = (a, 0) :: m := by simp only [step, if_neg h0]
        rw [this]
        simp only [List.map_cons, List.mem_cons]
        rw [not_or] at h0
        constructor
        · rintro (⟨w, w'⟩ | rfl | w)
          · exact Or.inl ⟨Or.inr w, w'⟩
          · exact Or.inl ⟨Or.inl rfl, h0.1⟩
          · exact Or.inr w
        · rintro (⟨w | w, w'⟩ | w)
          · exact Or.inr (Or.inl w)
          · exact Or.inl ⟨w, w'⟩
          · exact Or.inr (Or.inr w)
  simpa using gen L []

/-- C05, what the code does with a sorted list without duplicates: the stored strings are right, but `size` counts the
empty string too. -/
theorem C05_exact (L : List (List Nat)) (hb : ∀ k ∈ L, Bytes k) (hL : L.Pairwise lexLt) :
    ∃ h, Base.assign L = some h ∧ Base.size h = L.length ∧
      ∀ k, Bytes k → Base.contains h k = some (decide (k ∈ L ∧ k ≠ [])) := by
  obtain ⟨h, F, e, I, hs, C⟩ := bulk_spec hL hb
  refine ⟨h, e, hs, fun k hk => ?_⟩
  rw [Shape.contains ⟨I, wf_zeros hL hb, C⟩ hk]
  congr 1
  rw [Bool.eq_iff_iff, decide_eq_true_iff, Verif.Props.TrieWide.mem_keys, List.mem_map]
  constructor
  · rintro ⟨⟨k', v⟩, hm, rfl⟩
    exact ⟨(mem_zeros.mp hm).1, (mem_zeros.mp hm).2.1⟩
  · rintro ⟨a, b⟩
    exact ⟨(k, 0), mem_zeros.mpr ⟨a, b, rfl⟩, rfl⟩

example : (∀ k ∈ [[97], [97, 98], [98]], Bytes k) ∧ sortedUnique [[97], [97, 98], [98]] = true := by decide

theorem insertAll_eq (L : List (List Nat)) : ∀ h, insertAll L h = (oneByOne L).foldlM baseStep h := by
  induction L with
  | nil => intro h; rfl
  | cons k L ih =>
    intro h
    rw [insertAll, oneByOne, List.map_cons, List.foldlM_cons]
    show _ = (baseStep h (.insert k 0)).bind _
    rw [baseStep]
    cases Base.insertKey h k 0 with
    | none => rfl
    | some r => exact ih r.1

/-- C05 is false: the list `""` gives size 1. -/
theorem C05_statement_false : ¬ C05_statement := by
  intro h
  obtain ⟨t, t', e, e', hs, _⟩ := h [[]] (by decide) [] (by simp)
  obtain ⟨t'', e'', hs', _⟩ := C05_exact [[]] (by decide) (by simp)
  rw [e] at e''
  obtain rfl := Option.some.inj e''
  simp only [List.foldlM_nil] at e'
  obtain rfl := Option.some.inj e'
  rw [hs] at hs'
  revert hs'
  decide

/-- The wrong size leads to undefined behaviour later: `assign("", "a", "b")`, then `"a"` and `"b"` are erased and a
string that starts with a zero byte is inserted. -/
theorem C05_later_ub : (Base.assign [[], [97], [98]]).isSome = true ∧
    ((Base.assign [[], [97], [98]]).bind fun h =>
      [Op.erase [97], .erase [98], .insert [0] 0].foldlM baseStep h) = none := by decide +kernel

/-- C05, partial: missing are lists that contain the empty string and are sorted without duplicates. -/
theorem C05_partial (L : List (List Nat)) (hb : ∀ k ∈ L, Bytes k) (hL : [] ∈ L → ¬ L.Pairwise lexLt)
    (later : List Op) (ok : ∀ op ∈ later, op.Ok) :
    ∃ h h', Base.assign L = some h ∧ later.foldlM baseStep h = some h' ∧
      Base.size h' = (run (oneByOne L ++ later)).length ∧
      ∀ k, Bytes k → Base.contains h' k = some (decide (k ∈ (run (oneByOne L ++ later)).map Prod.fst)) ∧
        Base.atKey h' k = some ((KeyMap.get (runLossy (oneByOne L ++ later)) k).map Int.ofNat) := by
  have okL : ∀ op ∈ oneByOne L, op.Ok := by
    intro op ho
    obtain ⟨k, hk, rfl⟩ := List.mem_map.mp ho
    exact ⟨hb k hk, by decide⟩
  have lossy : ∀ (L : List (List Nat)) (m : KMap), (oneByOne L).foldl stepLossy m = (oneByOne L).foldl step m := by
    intro L
    induction L with
    | nil => intro m; rfl
    | cons k L ih => intro m; exact ih _
  have hR : ∃ h F, Base.assign L = some h ∧ Rep h F (runLossy (oneByOne L)) := by
    by_cases hs : L.Pairwise lexLt
    · have h0 : [] ∉ L := fun w => hL w hs
      obtain ⟨h, F, e, I, hz, C⟩ := bulk_spec hs hb
      refine ⟨h, F, e, ?_⟩
      have nd : L.Nodup := hs.imp fun {a b} h => by rintro rfl; exact lexLt_irrefl a h
      unfold runLossy
      rw [lossy]
      unfold oneByOne
      rw [run_zeros nd]
      refine Rep.of_reverse I (wf_zeros hs hb) ?_ C
      rw [hz]
      unfold zeros
      rw [List.length_map, List.filter_eq_self.mpr]
      intro k hk
      rw [decide_eq_true_iff]
      rintro rfl
      exact h0 hk
    · obtain ⟨h, F, e, R⟩ := base_run (oneByOne L) rep_empty okL
      refine ⟨h, F, ?_, R⟩
      unfold Base.assign
      rw [if_pos, insertAll_eq]
      · exact e
      · rw [Bool.eq_false_iff]
        intro w
        exact hs ((sortedUnique_iff L).mp w)
  obtain ⟨h, F, e, R⟩ := hR
  obtain ⟨h', F', e', R'⟩ := base_run later R ok
  have hk := keys_run (oneByOne L ++ later) (rfl : ([] : KMap).map Prod.fst = ([] : KMap).map Prod.fst)
  rw [List.foldl_append] at hk
  refine ⟨h, h', e, e', ?_, fun k hb => ⟨?_, ?_⟩⟩
  · have := congrArg List.length hk
    simp only [List.length_map] at this
    show h'.base 0 = _
    rw [R'.size]
    unfold runLossy run
    rw [this]
  · rw [R'.contains hb]
    unfold run
    rw [← hk]
    congr 1
    rw [Bool.eq_iff_iff, decide_eq_true_iff, ← Verif.Props.TrieWide.mem_keys]
    rfl
  · rw [R'.atKey hb, runLossy, runLossy, List.foldl_append]

example : (∀ k ∈ [[97], [97, 98], [98]], Bytes k) ∧ ([] : List Nat) ∉ [[97], [97, 98], [98]] := by decide

example : (∀ k ∈ [[98], [], [97]], Bytes k) ∧ sortedUnique [[98], [], [97]] = false := by decide

end Verif.Props.TrieBulk
