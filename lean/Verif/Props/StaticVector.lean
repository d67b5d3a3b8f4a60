import Verif.Proof.StaticVector
/-
Properties C20, C21, C55, C56: static_vector.
-/
namespace Verif.Props.StaticVector
open Verif.Model.StaticVector Verif.Spec.ListOps Verif.Proof.StaticVector
variable {α : Type}

/-- What a user sees: the elements `v[0] .. v[size()-1]`. -/
def contents (v : SV α) : List α := v.store.take v.size

/-- The C++ member called for each abstract operation (single element insert and erase go through their own members). -/
def call (v : SV α) : Op α → Option (SV α)
  | .pushBack x => pushBack v x
  | .popBack => popBack v
  | .insert pos [x] => insertOne v pos x
  | .insert pos xs => insertAll v pos xs
  | .erase first last => if last = first + 1 then erase v first else eraseRange v first last
  | .assign xs => assign v xs
  | .resize n x => resize v n x
  | .clear => some (clear v)

def callAll (v : SV α) : List (Op α) → Option (SV α)
  | [] => some v
  | op :: ops => (call v op).bind fun v' => callAll v' ops

/-- C20 (one step). Whenever the list operation is allowed, the member succeeds without touching storage outside the
capacity `N`, and the contents are the result of the list operation. -/
theorem C20_step (N : Nat) (v : SV α) (hl : v.store.length = N) (hs : v.size ≤ N) (op : Op α) (l' : List α)
    (h : step N (contents v) op = some l') :
    ∃ v', call v op = some v' ∧ v'.store.length = N ∧ v'.size ≤ N ∧ contents v' = l' := by
  have hi : Inv N v := ⟨hl, hs⟩
  have hc : contents v = abs v := rfl
  have hlen : (contents v).length = v.size := abs_length hi
  suffices ∃ v', call v op = some v' ∧ Inv N v' ∧ abs v' = l' by
    obtain ⟨v', a, b, c⟩ := this; exact ⟨v', a, b.1, b.2, c⟩
  have hfull : (abs v).take v.size = abs v := List.take_of_length_le (by rw [abs_length hi]; omega)
  have hnil : (abs v).drop v.size = [] := List.drop_eq_nil_of_le (by rw [abs_length hi]; omega)
  cases op with
  | pushBack x =>
    simp only [step] at h
    split at h
    · rename_i hlt
      obtain ⟨v', e, i, a⟩ := insertAll_ok hi v.size [x] (Nat.le_refl _) (by rw [hlen] at hlt; exact hlt)
      refine ⟨v', by rw [call, pushBack_eq]; exact e, i, ?_⟩
      rw [a, hfull, hnil, ← hc]; simpa using h
    · cases h
  | popBack =>
    simp only [step] at h
    split at h
    · cases h
    · rename_i hne
      have hpos : 0 < v.size := by
        rcases Nat.eq_zero_or_pos v.size with h0 | h0
        · exfalso; apply hne; rw [List.isEmpty_iff]; apply List.length_eq_zero_iff.mp; omega
        · exact h0
      obtain ⟨v', e, i, a⟩ := eraseRange_ok hi (v.size - 1) v.size (by omega) (by omega) (by omega)
      refine ⟨v', ?_, i, ?_⟩
      · rw [call, popBack, if_neg (by omega), erase_eq_eraseRange hi _ (by omega), show v.size - 1 + 1 = v.size by omega]
        exact e
      · rw [a, hnil, List.append_nil, ← hc]
        simp only [Option.some.injEq] at h
        rw [← h, List.dropLast_eq_take, hlen]
  | insert pos xs =>
    simp only [step] at h
    split at h
    · rename_i hp
      obtain ⟨v', e, i, a⟩ := insertAll_ok hi pos xs (by omega) (by omega)
      refine ⟨v', ?_, i, by rw [a, ← hc]; simpa using h⟩
      unfold call
      split
      · cases ‹_›
      · cases ‹_›
      · rename_i e1; cases e1; rw [insertOne_eq_insertAll]; exact e
      · rename_i e1; cases e1; exact e
      all_goals cases ‹_›
    · cases h
  | erase first last =>
    simp only [step] at h
    split at h
    · rename_i hp
      obtain ⟨v', e, i, a⟩ := eraseRange_ok hi first last (by omega) (by omega) (by omega)
      refine ⟨v', ?_, i, by rw [a, ← hc]; simpa using h⟩
      simp only [call]
      split
      · rename_i e1; subst e1; rw [erase_eq_eraseRange hi _ (by omega)]; exact e
      · exact e
    · cases h
  | assign xs =>
    simp only [step] at h
    split at h
    · rename_i hp
      obtain ⟨v', e, i, a⟩ := assign_ok hi xs hp
      exact ⟨v', e, i, by rw [a]; simpa using h⟩
    · cases h
  | resize n x =>
    simp only [step] at h
    split at h
    · rename_i hp
      simp only [Option.some.injEq] at h
      simp only [call, resize, hl]
      rw [if_neg (by omega)]
      by_cases h1 : n < v.size
      · obtain ⟨v', e, i, a⟩ := eraseRange_ok hi n v.size h1 (by omega) (by omega)
        rw [if_pos h1]
        refine ⟨v', e, i, ?_⟩
        rw [a, hnil, ← h, hlen, show n - v.size = 0 by omega]; simp [hc]
      · rw [if_neg h1]
        by_cases h2 : v.size < n
        · obtain ⟨v', e, i, a⟩ := insertAll_ok hi v.size (List.replicate (n - v.size) x) (Nat.le_refl _) (by simp; omega)
          rw [if_pos h2]
          refine ⟨v', e, i, ?_⟩
          rw [a, hfull, hnil, ← h, hlen, hc, List.take_of_length_le (by rw [abs_length hi]; omega)]; simp
        · rw [if_neg h2]
          refine ⟨v, rfl, hi, ?_⟩
          rw [← h, hlen, show n - v.size = 0 by omega, hc, List.take_of_length_le (by rw [abs_length hi]; omega)]; simp
    · cases h
  | clear =>
    simp only [step, Option.some.injEq] at h
    exact ⟨clear v, rfl, ⟨hl, by simp [clear]⟩, by simp [abs, clear, h]⟩

/-- C20. Any history of operations allowed for a list of at most `N` elements, from an empty vector of capacity `N`,
runs without undefined behaviour and leaves exactly that list. -/
theorem C20_history (N : Nat) (dflt : α) (ops : List (Op α)) (l : List α) (h : run N [] ops = some l) :
    ∃ v, callAll (empty N dflt) ops = some v ∧ v.store.length = N ∧ v.size ≤ N ∧ contents v = l ∧ l.length = v.size := by
  have gen : ∀ (ops : List (Op α)) (v : SV α), v.store.length = N → v.size ≤ N →
      ∀ l, run N (contents v) ops = some l →
      ∃ v', callAll v ops = some v' ∧ v'.store.length = N ∧ v'.size ≤ N ∧ contents v' = l := by
    intro ops
    induction ops with
    | nil => intro v h1 h2 l h; exact ⟨v, rfl, h1, h2, by simpa [run] using h⟩
    | cons op ops ih =>
      intro v h1 h2 l h
      simp only [run] at h
      cases hs : step N (contents v) op with
      | none => rw [hs] at h; cases h
      | some l1 =>
        obtain ⟨v1, e, a, b, c⟩ := C20_step N v h1 h2 op l1 hs
        rw [hs, Option.bind_some, ← c] at h
        obtain ⟨v2, e2, r⟩ := ih v1 a b l h
        exact ⟨v2, by simp [callAll, e, e2], r⟩
  obtain ⟨v, a, b, c, d⟩ := gen ops (empty N dflt) (by simp [empty]) (by simp [empty]) l (by simpa [contents, empty] using h)
  exact ⟨v, a, b, c, d, by rw [← d]; exact abs_length ⟨b, c⟩⟩

example : run 4 [] [.pushBack 1, .pushBack 2, .insert 1 [7, 8], .erase 0 1, .resize 4 9, .popBack]
    = some [7, 8, 2] := by decide

/-- C21, full statement: `at` gives the element or throws. It is false of the code. -/
def C21_statement : Prop := ∀ (v : SV Nat), v.size ≤ v.store.length → ∀ pos, at? v pos = (contents v)[pos]?

/-- C21, partial: right for positions below size() and from the capacity on. Missing: the unused positions in between,
where `at` returns stale storage instead of throwing. -/
theorem C21_at_partial (v : SV α) (h : v.size ≤ v.store.length) (pos : Nat) (hp : pos < v.size ∨ v.store.length ≤ pos) :
    at? v pos = (contents v)[pos]? := by
  unfold at? contents
  rw [List.getElem?_take]
  rcases hp with hp | hp
  · rw [if_pos (by omega), if_pos hp]
  · rw [if_neg (by omega), if_neg (by omega)]

/-- For every vector that is not full, `at(size())` does not throw. -/
theorem C21_at_misses_bound (v : SV α) (h : v.size < v.store.length) :
    (at? v v.size).isSome = true ∧ (contents v)[v.size]? = none := by
  unfold at? contents
  refine ⟨by rw [if_pos h]; simp [h], ?_⟩
  rw [List.getElem?_take, if_neg (by omega)]

theorem C21_statement_false : ¬ C21_statement := by
  intro h; exact absurd (h ⟨[5, 6], 1⟩ (by decide) 1) (by decide)

example : (⟨[5, 6], 1⟩ : SV Nat).size < (⟨[5, 6], 1⟩ : SV Nat).store.length := by decide

/-- C55, full statement: inserting a copy of one of the vector's own elements. It is false of the code. -/
def C55_statement : Prop := ∀ (v : SV Nat), v.size < v.store.length → ∀ pos i, pos ≤ v.size → i < v.size →
  (insertSelf v pos i).map contents =
    some ((contents v).take pos ++ ((contents v)[i]?).toList ++ (contents v).drop pos)

/-- C55, partial: right when the element precedes the insertion point. Missing: elements at or behind it, where the
element is read after it was moved away. -/
theorem C55_insert_self_partial (N : Nat) (v : SV α) (hl : v.store.length = N) (hs : v.size < N) (pos i : Nat)
    (hp : pos ≤ v.size) (hi : i < pos) :
    (insertSelf v pos i).map contents =
      some ((contents v).take pos ++ ((contents v)[i]?).toList ++ (contents v).drop pos) := by
  have hiv : i < v.store.length := by omega
  have hci : (contents v)[i]? = some v.store[i] := by
    unfold contents; rw [List.getElem?_take, if_pos (by omega)]; simp [hiv]
  obtain ⟨v', e, _, a⟩ := insertAll_ok (N := N) (v := v) ⟨hl, by omega⟩ pos [v.store[i]] hp (by simp; omega)
  rw [← insertOne_eq_insertAll] at e
  have : insertSelf v pos i = insertOne v pos v.store[i] := by
    unfold insertSelf insertOne
    rw [if_pos (by omega), if_pos (by omega)]
    obtain ⟨st, e1, l1, g1⟩ := copyBackward_spec (v.size - pos) pos (pos + 1) v.store (by omega) (by omega)
    rw [e1]
    simp only [Option.bind_some, g1]
    rw [if_neg (by omega)]; simp [hiv]
  rw [this, e, hci, Option.map_some]
  congr 1

/-- Inserting `v[1]` at the front of `[1, 2]` gives `[1, 1, 2]` instead of `[2, 1, 2]`. -/
theorem C55_statement_false : ¬ C55_statement := by
  intro h; exact absurd (h ⟨[1, 2, 0], 2⟩ (by decide) 0 1 (by decide) (by decide)) (by decide)

example : insertSelf (⟨[1, 2, 0], 2⟩ : SV Nat) 2 0 = some ⟨[1, 2, 1], 3⟩ := by decide

/-- C56, full statement: advancing an iterator within `[begin(), end()]`. It is false of the code. -/
def C56_statement : Prop := ∀ (v : SV Nat), v.size ≤ v.store.length → ∀ pos n, pos + n ≤ v.size →
  iterAdd v pos n = some (pos + n)

/-- C56, partial: right while the vector is not full. Missing: reaching end() of a full vector trips an assertion. -/
theorem C56_iterator_advance_partial (v : SV α) (h : v.size < v.store.length) (pos n : Nat) (hp : pos + n ≤ v.size) :
    iterAdd v pos n = some (pos + n) := by
  unfold iterAdd; rw [if_pos (by omega)]

theorem C56_full_vector_asserts (v : SV α) (h : v.size = v.store.length) : iterAdd v 0 v.size = none := by
  unfold iterAdd; rw [if_neg (by omega)]

theorem C56_statement_false : ¬ C56_statement := by
  intro h; exact absurd (h ⟨[1, 2], 2⟩ (by decide) 0 2 (by decide)) (by decide)

example : iterAdd (⟨[1, 2, 0], 2⟩ : SV Nat) 0 2 = some 2 := by decide


end Verif.Props.StaticVector
