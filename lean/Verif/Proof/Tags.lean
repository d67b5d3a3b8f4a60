import Verif.Spec.Tags
import Verif.Proof.Forest
import Verif.Proof.TagSeg

/-! Facts about the serial form of forests. -/
namespace Verif.Proof.TagTree
open Verif.Spec Verif.Spec.Forest Verif.Spec.Tags
variable {α : Type}

/-- Nodes without end tag have no children. -/
def wf : TF α → Prop
  | .nil => True
  | .cons _ x k s => (x.2 = 0 → k = .nil) ∧ wf k ∧ wf s

/-- The tags of one tree. -/
def tags (i : Nat) (x : α × Nat) (k : TF α) : List Nat := i :: (if x.2 = 0 then [] else names k ++ [x.2])

theorem lst_tags (a i : Nat) (x : α × Nat) (k : TF α) : lst a (tags i x k) = if x.2 = 0 then i else x.2 := by
  rw [tags, lst]
  split
  · rfl
  · rw [lst_append]; rfl

theorem names_cons (i : Nat) (x : α × Nat) (k s : TF α) : names (.cons i x k s) = tags i x k ++ names s := by
  rw [names, tags]
  split <;> simp

theorem names_append (f g : TF α) : names (append f g) = names f ++ names g := by
  induction f with
  | nil => rfl
  | cons i x k s _ hs => rw [append, names_cons, names_cons, hs, List.append_assoc]

/-- End tags. -/
def ends (f : TF α) : List Nat := ((nodes f).map fun e => e.2.2).filter (· ≠ 0)

theorem ends_cons (i : Nat) (x : α × Nat) (k s : TF α) :
    ends (.cons i x k s) = (if x.2 = 0 then [] else [x.2]) ++ (ends k ++ ends s) := by
  unfold ends
  rw [nodes, List.map_cons, List.filter_cons]
  by_cases h : x.2 = 0
  · simp [h]
  · simp [h]

theorem names_perm {f : TF α} (h : wf f) : (names f).Perm (ids f ++ ends f) := by
  induction f with
  | nil => simp [names, ids, ends, nodes]
  | cons i x k s hk hs =>
    obtain ⟨h1, h2, h3⟩ := h
    rw [names, ids, ends_cons]
    by_cases hx : x.2 = 0
    · rw [if_pos hx, if_pos hx, h1 hx]
      simpa [ids, ends, nodes] using hs h3
    · rw [if_neg hx, if_neg hx]
      rw [List.cons_append]
      refine List.Perm.cons _ ?_
      have := hk h2
      have := hs h3
      rw [List.perm_iff_count] at *
      intro a
      have h1 := (hk h2) a
      have h2 := (hs h3) a
      simp only [List.count_cons, List.count_append, List.count_nil] at *
      omega

theorem mem_names {f : TF α} (h : wf f) {i : Nat} : i ∈ names f ↔ i ∈ ids f ∨ i ∈ ends f := by
  rw [(names_perm h).mem_iff, List.mem_append]

theorem ids_nodup {f : TF α} (h : wf f) (nd : (names f).Nodup) : (ids f).Nodup :=
  (List.nodup_append.mp ((names_perm h).nodup_iff.mp nd)).1

theorem ids_ends {f : TF α} (h : wf f) (nd : (names f).Nodup) {i} (hi : i ∈ ids f) : i ∉ ends f := fun hj =>
  (List.nodup_append.mp ((names_perm h).nodup_iff.mp nd)).2.2 i hi i hj rfl

theorem hd_append (A B : List Nat) (y : Nat) : hd (A ++ B) y = hd A (hd B y) := by cases A <;> rfl

theorem hd_names (g : TF α) (y : Nat) : hd (names g) y = if roots g = [] then y else (roots g).headD 0 := by
  cases g with
  | nil => rfl
  | cons i x k s => simp [names, roots, hd]

theorem names_insertBefore {pos n : Nat} {x : α × Nat} {k f : TF α} (hp : pos = 0 ∨ pos ∈ roots f) (h0 : 0 ∉ roots f) :
    ∃ A B, names f = A ++ B ∧ (∀ z, hd B z = if pos = 0 then z else pos) ∧
      names (insertBefore pos n x k f) = A ++ tags n x k ++ B := by
  induction f with
  | nil =>
    have : pos = 0 := by simpa [roots] using hp
    refine ⟨[], [], rfl, ?_, ?_⟩
    · intro z; simp [hd, this]
    · rw [insertBefore, names_cons]; simp [names]
  | cons i y c s _ hs =>
    rw [insertBefore]
    simp only [roots, List.mem_cons, not_or] at hp h0
    by_cases hi : i = pos
    · rw [if_pos hi]
      refine ⟨[], names (.cons i y c s), rfl, ?_, ?_⟩
      · intro z
        subst hi
        rw [if_neg (Ne.symm h0.1)]; rfl
      · rw [names_cons]; rfl
    · rw [if_neg hi]
      obtain ⟨A, B, e1, e2, e3⟩ := hs (by rcases hp with h | h | h; exacts [Or.inl h, absurd h.symm hi, Or.inr h]) h0.2
      refine ⟨tags i y c ++ A, B, ?_, e2, ?_⟩
      · rw [names_cons, e1, List.append_assoc]
      · rw [names_cons, e3]; simp

theorem find_mem {f : TF α} {p y c} (h : find f p = some (y, c)) : p ∈ ids f := by
  by_contra hp
  rw [find_none hp] at h; simp at h

theorem names_insertUnder {p pos n : Nat} {x y : α × Nat} {k c f : TF α} (w : wf f) (nd : (ids f).Nodup) (h0 : 0 ∉ ids f)
    (hf : find f p = some (y, c)) (hy : y.2 ≠ 0) (hp : pos = 0 ∨ pos ∈ roots c) :
    ∃ A B, names f = A ++ B ∧ (∀ z, hd B z = if pos = 0 then y.2 else pos) ∧
      names (insertUnder p pos n x k f) = A ++ tags n x k ++ B := by
  induction f with
  | nil => simp [find] at hf
  | cons i z d s hd' hs =>
    obtain ⟨w1, w2, w3⟩ := w
    obtain ⟨a, b, ndd, nds, dj⟩ := nodup_cons nd
    have h0' : 0 ∉ ids d ∧ 0 ∉ ids s := by simp [ids] at h0; exact ⟨h0.2.1, h0.2.2⟩
    rw [insertUnder]
    rw [find] at hf
    by_cases hi : p = i
    · rw [if_pos hi] at hf
      obtain ⟨rfl, rfl⟩ := by simpa using hf
      obtain ⟨A, B, e1, e2, e3⟩ := names_insertBefore (n := n) (x := x) (k := k) hp
        (fun h => h0'.1 (roots_sub _ _ h))
      subst hi
      rw [if_pos rfl, insertUnder_not_mem b]
      refine ⟨p :: A, B ++ z.2 :: names s, ?_, ?_, ?_⟩
      · rw [names, if_neg hy, e1]; simp
      · intro u
        rw [hd_append, e2]; rfl
      · rw [names, if_neg hy, e3]; simp
    · rw [if_neg hi] at hf
      rw [if_neg (Ne.symm hi)]
      cases hq : find d p with
      | some r =>
        rw [hq] at hf
        simp only [Option.some_or, Option.some.injEq] at hf
        subst hf
        have hz : z.2 ≠ 0 := by
          intro h
          rw [w1 h] at hq; simp [find] at hq
        obtain ⟨A, B, e1, e2, e3⟩ := hd' w2 ndd h0'.1 hq
        rw [insertUnder_not_mem (dj p (find_mem hq))]
        refine ⟨i :: A, B ++ z.2 :: names s, ?_, ?_, ?_⟩
        · rw [names, if_neg hz, e1]; simp
        · intro u
          rw [hd_append, e2]
        · rw [names, if_neg hz, e3]; simp
      | none =>
        rw [hq] at hf
        simp only [Option.none_or] at hf
        have hps := find_mem hf
        rw [insertUnder_not_mem (fun h => dj p h hps)]
        obtain ⟨A, B, e1, e2, e3⟩ := hs w3 nds h0'.2 hf
        refine ⟨tags i z d ++ A, B, ?_, e2, ?_⟩
        · rw [names_cons, e1, List.append_assoc]
        · rw [names_cons, e3]; simp

theorem close_find {f : TF α} {p y c} (h0 : 0 ∉ ids f) (h : find f p = some (y, c)) : close f p = y.2 := by
  have : p ≠ 0 := by rintro rfl; exact h0 (find_mem h)
  rw [close, if_neg this, h]

theorem under_find {f : TF α} {p y c} (h0 : 0 ∉ ids f) (h : find f p = some (y, c)) : under f p = c := by
  have : p ≠ 0 := by rintro rfl; exact h0 (find_mem h)
  rw [under, if_neg this, h]

theorem children_find {f : TF α} {p y c} (nd : (ids f).Nodup) (h0 : 0 ∉ ids f) (h : find f p = some (y, c)) :
    children f p = roots c := by
  have : p ≠ 0 := by rintro rfl; exact h0 (find_mem h)
  rw [children, if_neg this, (find_kids nd h).1]

theorem names_insert {p pos n : Nat} {x : α × Nat} {k f : TF α} (w : wf f) (nd : (ids f).Nodup) (h0 : 0 ∉ ids f)
    (hp : Tags.IsPos f p pos) :
    ∃ A B, names f = A ++ B ∧ hd B 0 = place f p pos ∧ names (Forest.insert p pos n x k f) = A ++ tags n x k ++ B := by
  unfold Forest.insert place
  by_cases hp0 : p = 0
  · subst hp0
    obtain ⟨_, h⟩ := hp
    rw [children, if_pos rfl] at h
    obtain ⟨A, B, e1, e2, e3⟩ := names_insertBefore (n := n) (x := x) (k := k) h (fun h => h0 (roots_sub _ _ h))
    rw [if_pos rfl]
    refine ⟨A, B, e1, ?_, e3⟩
    rw [e2, close, if_pos rfl]
  · obtain ⟨h1, h2⟩ := hp
    obtain ⟨hpm, hc⟩ := h1.resolve_left hp0
    obtain ⟨y, c, hf⟩ := find_some hpm
    rw [close_find h0 hf] at hc ⊢
    rw [children_find nd h0 hf] at h2
    obtain ⟨A, B, e1, e2, e3⟩ := names_insertUnder (n := n) (x := x) (k := k) w nd h0 hf hc h2
    rw [if_neg hp0]
    exact ⟨A, B, e1, e2 0, e3⟩

theorem names_erase {f : TF α} (w : wf f) (nd : (ids f).Nodup) {x y k} (h : find f x = some (y, k)) :
    ∃ A B, names f = A ++ tags x y k ++ B ∧ names (Forest.erase x f) = A ++ B := by
  induction f with
  | nil => simp [find] at h
  | cons i z d s hd' hs =>
    obtain ⟨w1, w2, w3⟩ := w
    obtain ⟨a, b, ndd, nds, dj⟩ := nodup_cons nd
    rw [Forest.erase]
    rw [find] at h
    by_cases hi : x = i
    · rw [if_pos hi] at h
      obtain ⟨rfl, rfl⟩ := by simpa using h
      subst hi
      rw [if_pos rfl]
      exact ⟨[], names s, names_cons _ _ _ _, rfl⟩
    · rw [if_neg hi] at h
      rw [if_neg (Ne.symm hi)]
      cases hq : find d x with
      | some r =>
        rw [hq] at h
        simp only [Option.some_or, Option.some.injEq] at h
        subst h
        have hz : z.2 ≠ 0 := by
          intro h
          rw [w1 h] at hq; simp [find] at hq
        obtain ⟨A, B, e1, e2⟩ := hd' w2 ndd hq
        rw [erase_not_mem (dj x (find_mem hq))]
        refine ⟨i :: A, B ++ z.2 :: names s, ?_, ?_⟩
        · rw [names, if_neg hz, e1]; simp
        · rw [names, if_neg hz, e2]; simp
      | none =>
        rw [hq] at h
        simp only [Option.none_or] at h
        have hps := find_mem h
        rw [erase_not_mem (fun h => dj x h hps)]
        obtain ⟨A, B, e1, e2⟩ := hs w3 nds h
        refine ⟨tags i z d ++ A, B, ?_, ?_⟩
        · rw [names_cons, e1]; simp
        · rw [names_cons, e2]; simp

theorem wf_insertBefore {pos n : Nat} {x : α × Nat} {k f : TF α} (w : wf f) (hx : x.2 = 0 → k = .nil) (hk : wf k) :
    wf (insertBefore pos n x k f) := by
  induction f with
  | nil => exact ⟨hx, hk, trivial⟩
  | cons i y c s _ hs =>
    rw [insertBefore]
    split
    · exact ⟨hx, hk, w⟩
    · exact ⟨w.1, w.2.1, hs w.2.2⟩

theorem wf_insertUnder {p pos n : Nat} {x : α × Nat} {k f : TF α} (w : wf f) (nd : (ids f).Nodup)
    (hp : ∀ y c, find f p = some (y, c) → y.2 ≠ 0) (hx : x.2 = 0 → k = .nil) (hk : wf k) :
    wf (insertUnder p pos n x k f) := by
  induction f with
  | nil => trivial
  | cons i z c s hc hs =>
    obtain ⟨w1, w2, w3⟩ := w
    obtain ⟨a, b, ndd, nds, dj⟩ := nodup_cons nd
    rw [insertUnder]
    refine ⟨?_, ?_, hs w3 nds ?_⟩
    · intro hz
      rw [w1 hz]
      split
      · rename_i h
        exact absurd hz (hp z c (by rw [find, if_pos h.symm]))
      · rfl
    · split
      · exact wf_insertBefore w2 hx hk
      · rename_i h
        refine hc w2 ndd ?_
        intro y d e
        exact hp y d (by rw [find, if_neg (Ne.symm h), e]; rfl)
    · intro y d e
      have hps := find_mem e
      exact hp y d (by
        rw [find, if_neg (by rintro rfl; exact b hps), find_none (fun h => dj p h hps), e]; rfl)

theorem wf_insert {p pos n : Nat} {x : α × Nat} {k f : TF α} (w : wf f) (nd : (ids f).Nodup) (h0 : 0 ∉ ids f)
    (hp : Tags.IsPos f p pos) (hx : x.2 = 0 → k = .nil) (hk : wf k) : wf (Forest.insert p pos n x k f) := by
  unfold Forest.insert
  split
  · exact wf_insertBefore w hx hk
  · rename_i h
    refine wf_insertUnder w nd ?_ hx hk
    intro y c hf
    rw [← close_find h0 hf]
    exact (hp.1.resolve_left h).2

theorem wf_erase {f : TF α} (w : wf f) (x : Nat) : wf (Forest.erase x f) := by
  induction f with
  | nil => trivial
  | cons i z d s hd' hs =>
    rw [Forest.erase]
    split
    · exact w.2.2
    · exact ⟨fun h => by rw [w.1 h]; rfl, hd' w.2.1, hs w.2.2⟩

theorem wf_find {f : TF α} (w : wf f) {x y k} (h : find f x = some (y, k)) : (y.2 = 0 → k = .nil) ∧ wf k := by
  induction f with
  | nil => simp [find] at h
  | cons i z d s hd' hs =>
    rw [find] at h
    split at h
    · obtain ⟨rfl, rfl⟩ := by simpa using h
      exact ⟨w.1, w.2.1⟩
    · cases hq : find d x with
      | some r =>
        rw [hq] at h
        simp only [Option.some_or, Option.some.injEq] at h
        subst h
        exact hd' w.2.1 hq
      | none =>
        rw [hq] at h
        simp only [Option.none_or] at h
        exact hs w.2.2 h

/-- Split a forest before one of its roots. -/
theorem split_root {g : Forest α} {A : List Nat} {x : Nat} {B : List Nat} (h : roots g = A ++ x :: B) :
    ∃ g1 y k s, g = append g1 (.cons x y k s) ∧ roots g1 = A ∧ roots s = B := by
  induction g generalizing A with
  | nil => simp [roots] at h
  | cons i y k s _ hs =>
    rw [roots] at h
    cases A with
    | nil =>
      obtain ⟨rfl, rfl⟩ := by simpa using h
      exact ⟨.nil, y, k, s, rfl, rfl, rfl⟩
    | cons a A =>
      rw [List.cons_append, List.cons.injEq] at h
      obtain ⟨rfl, h⟩ := h
      obtain ⟨g1, y', k', s', e, e1, e2⟩ := hs h
      exact ⟨.cons i y k g1, y', k', s', by rw [e]; rfl, by rw [roots, e1], e2⟩

theorem nodes_append (f g : Forest α) : nodes (append f g) = nodes f ++ nodes g := by
  induction f with
  | nil => rfl
  | cons i x k s _ hs => simp [append, nodes, hs]

theorem wf_append {f g : TF α} : wf (append f g) ↔ wf f ∧ wf g := by
  induction f with
  | nil => simp [append, wf]
  | cons i x k s _ hs => simp [append, wf, hs, and_assoc]

end Verif.Proof.TagTree
