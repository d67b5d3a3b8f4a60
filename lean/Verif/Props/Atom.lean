import Verif.Proof.Atom
/-
Properties C121 to C123: sets of atoms.
-/
namespace Verif.Props.Atom
open Verif.Model.Trie Verif.Proof.Trie Verif.Proof.Atom Verif.Spec.Atom
open Verif.Model.Atom (number text valid ofNumber ofString)
open Verif.Spec.Atom (Op run)

/-- One call on a `basic_atom_set`. -/
def call (w : Nat) (h : Heap) : Op → Option Heap
  | .insert s => (Model.Atom.insert w h s).map Prod.fst
  | .index s => (Model.Atom.index w h s).map Prod.fst
  | .erase s => Model.Atom.erase w h s
  | .eraseNumber s => (ofString w h s).bind fun a => (number h a).bind fun i => Model.Atom.eraseId h i
  | .clear => some Heap.empty

/-- Calls on a fresh `basic_atom_set`. -/
def calls (w : Nat) (ops : List Op) : Option Heap := ops.foldlM (call w) Heap.empty

/-- The characters fit into `w` bytes. -/
def Fit (w : Nat) (s : List Nat) : Prop := ∀ c ∈ s, c < 256 ^ w

/-! Helpers. -/

theorem call_holds {w : Nat} (hw : 0 < w) {h F m S} (H : Holds w h F m S) {op : Op} (ok : op.Ok w) :
    ∃ h' F' m', call w h op = some h' ∧ Holds w h' F' m' (Spec.Atom.step S op) := by
  cases op with
  | insert s =>
    obtain ⟨h', F', m', a, e, H', _⟩ := H.insert hw (s := s) ok
    exact ⟨h', F', m', by simp [call, e], H'⟩
  | index s =>
    obtain ⟨h', F', m', a, e, H', _⟩ := H.index hw (s := s) ok
    exact ⟨h', F', m', by simp [call, e], H'⟩
  | erase s =>
    obtain ⟨h', F', m', e, H', _⟩ := H.erase hw (s := s) ok
    exact ⟨h', F', m', e, H'⟩
  | eraseNumber s =>
    obtain ⟨h', F', m', e, H', _⟩ := H.erase hw (s := s) ok
    obtain ⟨a, i, e1, e2, e3⟩ := H.eraseId_eq hw (s := s) ok
    refine ⟨h', F', m', ?_, H'⟩
    unfold call
    dsimp only
    rw [e1, Option.bind_some, e2, Option.bind_some, e3, e]
  | clear => exact ⟨_, _, _, rfl, holds_empty⟩

theorem calls_from {w : Nat} (hw : 0 < w) : ∀ (ops : List Op) {h F m S}, Holds w h F m S → (∀ op ∈ ops, op.Ok w) →
    ∃ h' F' m', ops.foldlM (call w) h = some h' ∧ Holds w h' F' m' (ops.foldl Spec.Atom.step S)
  | [], h, F, m, _, H, _ => ⟨h, F, m, rfl, H⟩
  | op :: ops, _, _, _, _, H, ok => by
    obtain ⟨h1, F1, m1, e, H1⟩ := call_holds hw H (ok op (by simp))
    obtain ⟨h2, F2, m2, e2, H2⟩ := calls_from hw ops H1 (fun o ho => ok o (by simp [ho]))
    exact ⟨h2, F2, m2, by rw [List.foldlM_cons, e]; exact e2, H2⟩

theorem calls_holds {w : Nat} (hw : 0 < w) (ops : List Op) (ok : ∀ op ∈ ops, op.Ok w) :
    ∃ h F m, calls w ops = some h ∧ Holds w h F m (run ops) := calls_from hw ops holds_empty ok

theorem two_le {w : Nat} (hw : 0 < w) {h F m S} (H : Holds w h F m S) {s : List Nat} (hn : s ≠ []) {a : Nat}
    (hi : walk h 1 (bytesOf w s) = some a) : 2 ≤ a := by
  by_contra hlt
  have : a = 1 := by
    rcases H.R.I.root_used hi with q | q
    · exact q
    · omega
  subst this
  exact hn ((bytesOf_eq_nil hw).mp (H.R.I.walk_inj hi rfl))

/-! ### C121: the set is a one-to-one numbering of its strings -/

/-- What is seen of the set `h` that holds the strings `S`: its size, what it contains, and the atoms. The atom of a stored string is
valid, has the string as its text and a number other than 0, and is found again by its number; different strings have different
numbers. The atom of any other string is the empty one, with the number 0 and the empty text. -/
structure Numbered (w : Nat) (h : Heap) (S : List (List Nat)) : Prop where
  size : Base.size h = S.length
  nodup : S.Nodup
  contains : ∀ s, Fit w s → Model.Atom.contains w h s = some (decide (s ∈ S))
  absent : ∀ s, Fit w s → s ∉ S → ofString w h s = some 0
  empty : valid h 0 = some false ∧ number h 0 = some 0 ∧ text w h 0 = some []
  stored : ∀ s ∈ S, ∃ a i, ofString w h s = some a ∧ valid h a = some true ∧ text w h a = some s ∧
    number h a = some i ∧ i ≠ 0 ∧ ofNumber h i = some a
  inj : ∀ s ∈ S, ∀ t ∈ S, ∀ a b i, ofString w h s = some a → ofString w h t = some b → number h a = some i → number h b = some i → s = t

theorem numbered {w : Nat} (hw : 0 < w) {h F m S} (H : Holds w h F m S) : Numbered w h S := by
  have stored : ∀ s ∈ S, ∃ a i, ofString w h s = some a ∧ valid h a = some true ∧ text w h a = some s ∧
      number h a = some i ∧ i ≠ 0 ∧ ofNumber h i = some a := by
    intro s hs
    rcases H.find hw (H.wide hs) with ⟨a, h1, h2, h3, h4⟩ | ⟨h1, _⟩
    · obtain ⟨j, j1, j2, j3, j4, j5⟩ := H.number hw hs h2
      exact ⟨a, j, h4, by rw [H.valid hw (H.wide hs) h2 h3]; simp [hs], itString_spec H.R.I hw (H.wide hs) h2, j1, by omega, j4⟩
    · exact absurd hs h1
  refine ⟨H.size, H.nodup, ?_, ?_, ⟨rfl, rfl, ?_⟩, stored, ?_⟩
  · intro s hs
    unfold Model.Atom.contains
    rw [H.R.wideContains_eq hw, H.R.contains (bytesOf_byte w s)]
    congr 1
    rw [Bool.eq_iff_iff, decide_eq_true_iff, H.mem hw hs]
    constructor
    · intro q
      obtain ⟨v, hv⟩ := Option.isSome_iff_exists.mp q
      exact ⟨v, (get_some H.R.W).mp hv⟩
    · rintro ⟨v, hv⟩
      rw [(get_some H.R.W).mpr hv]; rfl
  · intro s hs hn
    rcases H.find hw hs with ⟨a, h1, _⟩ | ⟨_, h2⟩
    · exact absurd h1 hn
    · exact h2
  · simp [text, Model.Atom.text, itString, stringLoop]
  · intro s hs t ht a b i h1 h2 h3 h4
    obtain ⟨a', i', e1, -, e3, e4, -, e6⟩ := stored s hs
    obtain ⟨b', j', f1, -, f3, f4, -, f6⟩ := stored t ht
    rw [h1] at e1; cases e1
    rw [h2] at f1; cases f1
    rw [h3] at e4; cases e4
    rw [h4] at f4; cases f4
    rw [e6] at f6; cases f6
    rw [e3] at f3
    exact Option.some.inj f3

/-- Every history of calls is defined, and the set is a numbering of the strings inserted and not erased since. -/
theorem C121_numbered (w : Nat) (hw : 0 < w) (ops : List Op) (ok : ∀ op ∈ ops, op.Ok w) :
    ∃ h, calls w ops = some h ∧ Numbered w h (run ops) := by
  obtain ⟨h, F, m, e, H⟩ := calls_holds hw ops ok
  exact ⟨h, e, numbered hw H⟩

/-- The atom that `insert` and `operator[]` return is the atom of the string in the new set; for the empty string it is the empty atom. -/
theorem C121_result (w : Nat) (hw : 0 < w) (ops : List Op) (ok : ∀ op ∈ ops, op.Ok w) (s : List Nat) (hs : Fit w s) :
    ∃ h h1 a h2 b, calls w ops = some h ∧
      Model.Atom.insert w h s = some (h1, a) ∧ calls w (ops ++ [.insert s]) = some h1 ∧ ofString w h1 s = some a ∧ text w h1 a = some s ∧
      Model.Atom.index w h s = some (h2, b) ∧ calls w (ops ++ [.index s]) = some h2 ∧ ofString w h2 s = some b ∧ text w h2 b = some s := by
  obtain ⟨h, F, m, e, H⟩ := calls_holds hw ops ok
  obtain ⟨h1, F1, m1, a, e1, H1, z1, w1, _⟩ := H.insert hw (s := s) hs
  obtain ⟨h2, F2, m2, b, e2, H2, z2, w2, _⟩ := H.index hw (s := s) hs
  have c1 : calls w (ops ++ [.insert s]) = some h1 := by
    unfold calls at e ⊢
    rw [List.foldlM_append, e]
    simp [call, e1]
  have c2 : calls w (ops ++ [.index s]) = some h2 := by
    unfold calls at e ⊢
    rw [List.foldlM_append, e]
    simp [call, e2]
  have key : ∀ {h' F' m' a'}, Holds w h' F' m' (if s = [] ∨ s ∈ run ops then run ops else s :: run ops) → (s = [] → a' = 0) →
      (s ≠ [] → walk h' 1 (bytesOf w s) = some a') → ofString w h' s = some a' ∧ text w h' a' = some s := by
    intro h' F' m' a' H' z k
    by_cases hn : s = []
    · have N := numbered hw H'
      subst hn
      rw [z rfl]
      exact ⟨N.absent [] hs (fun q => H'.ne q rfl), N.empty.2.2⟩
    · have hin : s ∈ (if s = [] ∨ s ∈ run ops then run ops else s :: run ops) := by
        split
        · rename_i q; exact q.resolve_left hn
        · exact List.mem_cons_self ..
      refine ⟨?_, itString_spec H'.R.I hw hs (k hn)⟩
      rcases H'.find hw hs with ⟨x, _, x2, _, x4⟩ | ⟨x1, _⟩
      · rw [k hn] at x2; cases x2; exact x4
      · exact absurd hin x1
  obtain ⟨k1, k2⟩ := key H1 z1 w1
  obtain ⟨k3, k4⟩ := key H2 z2 w2
  exact ⟨h, h1, a, h2, b, e, e1, c1, k1, k2, e2, c2, k3, k4⟩

theorem assign_eq (w : Nat) : ∀ (l : List (List Nat)) (h : Heap), Model.Atom.assign w h l = (l.map Op.insert).foldlM (call w) h
  | [], _ => rfl
  | s :: l, h => by
    rw [Model.Atom.assign, List.map_cons, List.foldlM_cons]
    simp only [call]
    cases Model.Atom.insert w h s with
    | none => rfl
    | some r => exact assign_eq w l r.1

theorem mem_assigned (l : List (List Nat)) : ∀ (S : List (List Nat)) (s : List Nat),
    s ∈ (l.map Op.insert).foldl Spec.Atom.step S ↔ (s ≠ [] ∧ s ∈ l) ∨ s ∈ S := by
  induction l with
  | nil => intro S s; simp
  | cons a l ih =>
    intro S s
    rw [List.map_cons, List.foldl_cons, ih]
    simp only [Spec.Atom.step]
    split
    · rename_i h
      rcases h with h | h
      · subst h
        simp only [List.mem_cons]
        constructor
        · rintro (q | q)
          · exact .inl ⟨q.1, .inr q.2⟩
          · exact .inr q
        · rintro (⟨q1, q2 | q2⟩ | q)
          · exact absurd q2 q1
          · exact .inl ⟨q1, q2⟩
          · exact .inr q
      · simp only [List.mem_cons]
        constructor
        · rintro (q | q)
          · exact .inl ⟨q.1, .inr q.2⟩
          · exact .inr q
        · rintro (⟨q1, q2 | q2⟩ | q)
          · subst q2; exact .inr h
          · exact .inl ⟨q1, q2⟩
          · exact .inr q
    · rename_i h
      have ha : a ≠ [] := fun q => h (.inl q)
      simp only [List.mem_cons]
      constructor
      · rintro (q | rfl | q)
        · exact .inl ⟨q.1, .inr q.2⟩
        · exact .inl ⟨ha, .inl rfl⟩
        · exact .inr q
      · rintro (⟨q1, q2 | q2⟩ | q)
        · exact .inr (.inl q2)
        · exact .inl ⟨q1, q2⟩
        · exact .inr (.inr q)

/-- `assign` of a list of strings adds them (but not the empty string) to what the set holds (see C62). -/
theorem C121_assign (w : Nat) (hw : 0 < w) (ops : List Op) (ok : ∀ op ∈ ops, op.Ok w) (l : List (List Nat)) (hl : ∀ s ∈ l, Fit w s) :
    ∃ h h' S, calls w ops = some h ∧ Model.Atom.assign w h l = some h' ∧ Numbered w h' S ∧ ∀ s, s ∈ S ↔ (s ≠ [] ∧ s ∈ l) ∨ s ∈ run ops := by
  obtain ⟨h, F, m, e, H⟩ := calls_holds hw ops ok
  obtain ⟨h', F', m', e', H'⟩ := calls_from hw (l.map .insert) H (by
    intro op hop
    obtain ⟨s, hs, rfl⟩ := List.mem_map.mp hop
    exact hl s hs)
  exact ⟨h, h', _, e, by rw [assign_eq]; exact e', numbered hw H', mem_assigned l (run ops)⟩

/-- The hypotheses, and a history with all calls. -/
example : (∀ op ∈ [Op.insert [97, 98], .index [97], .insert [], .eraseNumber [97, 98], .clear, .insert [97, 300], .index [99], .erase [99]], op.Ok 2) ∧
    run [Op.insert [97, 98], .index [97], .insert [], .eraseNumber [97, 98], .clear, .insert [97, 300], .index [99], .erase [99]] = [[97, 300]] := by
  refine ⟨?_, by decide⟩
  simp [Op.Ok, Op.str]

/-! ### C122: the atom of a number -/

/-- As documented: a number that no atom has gives the empty atom. -/
def C122_statement : Prop := ∀ (w : Nat) (ops : List Op) (h : Heap) (i : Nat), 0 < w → (∀ op ∈ ops, op.Ok w) → calls w ops = some h →
  (∃ s ∈ run ops, ∃ a, ofString w h s = some a ∧ number h a = some i ∧ ofNumber h i = some a) ∨
  ((∀ s ∈ run ops, ∀ a, ofString w h s = some a → number h a ≠ some i) ∧ ofNumber h i = some 0)

/-- It is false: on the empty set, 0 has no result. -/
theorem C122_statement_false : ¬ C122_statement := by
  intro H
  rcases H 1 [] Heap.empty 0 (by decide) (by simp) rfl with ⟨s, hs, _⟩ | ⟨-, h⟩
  · simp [run] at hs
  · exact absurd h (by decide +kernel)

/-- `at` with a number is defined just for the numbers of stored strings, and then gives the atom. So the number 0 of the empty atom and
the number of an erased atom have no result: an assertion fails, or the number is outside of the container. -/
theorem C122_partial (w : Nat) (hw : 0 < w) (ops : List Op) (ok : ∀ op ∈ ops, op.Ok w) :
    ∃ h, calls w ops = some h ∧ ∀ i a, ofNumber h i = some a ↔ ∃ s ∈ run ops, ofString w h s = some a ∧ number h a = some i := by
  obtain ⟨h, F, m, e, H⟩ := calls_holds hw ops ok
  refine ⟨h, e, fun i a => ⟨fun q => ?_, ?_⟩⟩
  · obtain ⟨s, hs, s1, s2⟩ := H.of_number hw q
    refine ⟨s, hs, ?_, s2⟩
    rcases H.find hw (H.wide hs) with ⟨x, _, x2, _, x4⟩ | ⟨x1, _⟩
    · rw [s1] at x2; cases x2; exact x4
    · exact absurd hs x1
  · rintro ⟨s, hs, s1, s2⟩
    obtain ⟨a', i', e1, -, -, e4, -, e6⟩ := (numbered hw H).stored s hs
    rw [s1] at e1; cases e1
    rw [s2] at e4; cases e4
    exact e6

/-- On every set the number 0, which the empty atom has, gives no result. -/
theorem C122_zero (w : Nat) (hw : 0 < w) (ops : List Op) (ok : ∀ op ∈ ops, op.Ok w) :
    ∃ h, calls w ops = some h ∧ number h 0 = some 0 ∧ ofNumber h 0 = none := by
  obtain ⟨h, F, m, e, H⟩ := calls_holds hw ops ok
  refine ⟨h, e, rfl, ?_⟩
  cases q : ofNumber h 0 with
  | none => rfl
  | some a =>
    obtain ⟨s, hs, s1, s2⟩ := H.of_number hw q
    obtain ⟨j, j1, _, j3, _⟩ := H.number hw hs s1
    rw [s2] at j1; cases j1
    omega

/-! ### C123: numbers and atoms stay -/

/-- While a string stays in the set, its number and its atom stay. -/
def C123_statement : Prop := ∀ (w : Nat) (ops : List Op) (op : Op) (h h' : Heap) (s : List Nat) (a i : Nat), 0 < w → (∀ o ∈ ops, o.Ok w) → op.Ok w →
  calls w ops = some h → calls w (ops ++ [op]) = some h' → s ∈ run ops → s ∈ run (ops ++ [op]) → ofString w h s = some a → number h a = some i →
  ofString w h' s = some a ∧ number h' a = some i

/-- What inserting `s` does to the atom and the number of `t`: before and after, then the text of the atom got before. -/
def look (l : List (List Nat)) (s t : List Nat) : Option (Nat × Nat × Nat × Nat × Option (List Nat)) :=
  (calls 1 (l.map .insert)).bind fun h => (calls 1 (l.map .insert ++ [.insert s])).bind fun h' =>
    (ofString 1 h t).bind fun a => (number h a).bind fun i => (ofString 1 h' t).bind fun a' => (number h' a').map fun i' =>
      (a, i, a', i', text 1 h' a)

/-- Inserting `ab` into the set of `a` and `b` changes the number of `a` from 257 to 259. -/
theorem C123_number : look [[97], [98]] [97, 98] [97] = some (98, 257, 98, 259, some [97]) := by decide +kernel

/-- Inserting `ab` into the set of `aa` and `bb` moves the atom of `aa`; the one got before has no text any more (its node is free). -/
theorem C123_atom : look [[97, 97], [98, 98]] [97, 98] [97, 97] = some (99, 257, 103, 257, none) := by decide +kernel

theorem C123_statement_false : ¬ C123_statement := by
  intro H
  have hl := C123_number
  unfold look at hl
  simp only [Option.bind_eq_some_iff, Option.map_eq_some_iff] at hl
  obtain ⟨h, e, h', e', a, ea, i, ei, a', ea', i', ei', q⟩ := hl
  have := H 1 [.insert [97], .insert [98]] (.insert [97, 98]) h h' [97] a i (by decide)
    (by simp [Op.Ok, Op.str]) (by simp [Op.Ok, Op.str]) e e' (by decide) (by decide) ea ei
  simp only [Prod.mk.injEq] at q
  obtain ⟨rfl, rfl, rfl, rfl, -⟩ := q
  rw [this.2] at ei'
  cases ei'

/-- The number of a stored string stays unless it is erased or a longer string that begins with it is inserted anew; in particular inserting
a stored string again keeps all numbers. Missing: the insertion of longer strings (`C123_number`), and the atoms (`C123_atom`). -/
theorem C123_partial (w : Nat) (hw : 0 < w) (ops : List Op) (ok : ∀ o ∈ ops, o.Ok w) (op : Op) (ok' : op.Ok w) (s : List Nat) (hs : s ∈ run ops)
    (hop : match op with
      | .insert k | .index k => s <+: k → k ∈ run ops
      | .erase k | .eraseNumber k => k ≠ s
      | .clear => False) :
    ∃ h h' a a' i, calls w ops = some h ∧ calls w (ops ++ [op]) = some h' ∧ ofString w h s = some a ∧ ofString w h' s = some a' ∧
      number h a = some i ∧ number h' a' = some i := by
  obtain ⟨h, F, m, e, H⟩ := calls_holds hw ops ok
  obtain ⟨h', F', m', e', H'⟩ := call_holds hw H ok'
  have e2 : calls w (ops ++ [op]) = some h' := by
    unfold calls at e ⊢
    rw [List.foldlM_append, e]
    simp [e']
  have hin : s ∈ Spec.Atom.step (run ops) op := by
    cases op with
    | insert k => simp only [Spec.Atom.step]; split
                  · exact hs
                  · exact List.mem_cons_of_mem _ hs
    | index k => simp only [Spec.Atom.step]; split
                 · exact hs
                 · exact List.mem_cons_of_mem _ hs
    | erase k => exact List.mem_filter.mpr ⟨hs, by simpa using fun q => hop q.symm⟩
    | eraseNumber k => exact List.mem_filter.mpr ⟨hs, by simpa using fun q => hop q.symm⟩
    | clear => exact hop.elim
  have atom : ∀ {h F m S}, Holds w h F m S → s ∈ S → ∃ a i, ofString w h s = some a ∧ number h a = some i ∧ walk h 1 (bytesOf w s ++ [256]) = some i := by
    intro h F m S H hs
    rcases H.find hw (H.wide hs) with ⟨a, h1, h2, h3, h4⟩ | ⟨h1, _⟩
    · obtain ⟨j, j1, j2, _⟩ := H.number hw hs h2
      exact ⟨a, j, h4, j1, j2⟩
    · exact absurd hs h1
  obtain ⟨a, i, e3, e4, e5⟩ := atom H hs
  obtain ⟨a', i', e6, e7, e8⟩ := atom H' hin
  have n256 : ∀ k, ¬ (bytesOf w s ++ [256] <+: bytesOf w k) := by
    intro k q
    have : (256 : Nat) ∈ bytesOf w k := q.subset (by simp)
    exact absurd (bytesOf_byte w k 256 this) (by omega)
  have erased : ∀ k, Fit w k → k ≠ s → Model.Atom.erase w h k = some h' → walk h' 1 (bytesOf w s ++ [256]) = some i := by
    intro k hk hne he
    obtain ⟨h1, F1, m1, x1, _, x3⟩ := H.erase hw (s := k) hk
    rw [he] at x1; cases x1
    refine x3 _ _ ?_ e5 (n256 k) ?_
    · exact List.ne_nil_of_mem (List.mem_filter.mpr ⟨hs, by simpa using fun q => hne q.symm⟩)
    · intro q
      exact hne ((bytesOf_inj hw hk (H.wide hs)).mp (List.append_cancel_right q).symm)
  have pre : ∀ k, Fit w k → ¬ s <+: k → ∀ p l, p <+: bytesOf w k → bytesOf w s ++ [256] ≠ p ++ [l] := by
    intro k hk hn p l hp q
    obtain ⟨rfl, _⟩ := List.append_inj' q rfl
    exact hn ((bytesOf_prefix hw (H.wide hs) hk).mp hp)
  have same : walk h' 1 (bytesOf w s ++ [256]) = some i := by
    cases op with
    | insert k =>
      simp only [call, Option.map_eq_some_iff] at e'
      obtain ⟨⟨g, b⟩, e', rfl⟩ := e'
      by_cases hk : s <+: k
      · obtain ⟨g', b', x1, x2⟩ := H.insert_again hw (hop hk)
        rw [e'] at x1; cases x1
        rw [x2]; exact e5
      · obtain ⟨h1, F1, m1, b', x1, _, _, _, x5⟩ := H.insert hw (s := k) ok'
        rw [e'] at x1; cases x1
        exact x5 _ _ e5 (pre k ok' hk)
    | index k =>
      simp only [call, Option.map_eq_some_iff] at e'
      obtain ⟨⟨g, b⟩, e', rfl⟩ := e'
      by_cases hk : s <+: k
      · have hkin := hop hk
        rcases H.find hw (H.wide hkin) with ⟨x, _, x2, x3, x4⟩ | ⟨x1, _⟩
        · unfold Model.Atom.index at e'
          rw [x4, Option.bind_some, H.valid hw (H.wide hkin) x2 x3] at e'
          simp only [hkin, decide_true, Option.bind_some, if_true, Option.some.injEq, Prod.mk.injEq] at e'
          rw [← e'.1]; exact e5
        · exact absurd hkin x1
      · obtain ⟨h1, F1, m1, b', x1, _, _, _, x5⟩ := H.index hw (s := k) ok'
        rw [e'] at x1; cases x1
        exact x5 _ _ e5 (pre k ok' hk)
    | erase k => exact erased k ok' hop e'
    | eraseNumber k =>
      obtain ⟨x, j, x1, x2, x3⟩ := H.eraseId_eq hw (s := k) ok'
      unfold call at e'
      dsimp only at e'
      rw [x1, Option.bind_some, x2, Option.bind_some, x3] at e'
      exact erased k ok' hop e'
    | clear => exact hop.elim
  rw [e8] at same
  cases same
  exact ⟨h, h', a, a', _, e, e2, e3, e6, e4, e7⟩

/-- The hypotheses: `ab` is inserted again into the set of `a` and `ab`, then `b` is inserted. -/
example : (∀ o ∈ [Op.insert [97], .insert [97, 98]], o.Ok 1) ∧ [97] ∈ run [Op.insert [97], .insert [97, 98]] ∧
    ([97] <+: [97, 98] → [97, 98] ∈ run [Op.insert [97], .insert [97, 98]]) ∧ ¬ [97] <+: [98] := by
  refine ⟨by simp [Op.Ok, Op.str], by decide, fun _ => by decide, by decide⟩

end Verif.Props.Atom
