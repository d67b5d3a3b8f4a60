import Verif.Model.TreeIter
import Verif.Proof.TreeOps

/-! Iterators of the tree container. -/
namespace Verif.Proof.Tree
open Verif.Model.Tree Verif.Spec Verif.Spec.Forest
variable {α : Type}

theorem siblings_spec {t : T α} {p : Nat} : ∀ (l A : List Nat) (fuel : Nat), Chain t p (A ++ l) →
    (∀ x ∈ l, x ≠ 0 ∧ x < t.len) → l.length ≤ fuel →
    siblings t fuel ⟨p, l.headD 0⟩ ⟨p, 0⟩ = some (l.map (It.mk p)) := by
  intro l
  induction l with
  | nil =>
    intro A fuel _ _ _
    rw [siblings.eq_def]; dsimp only; rw [List.headD_nil, if_pos rfl]; rfl
  | cons a l ih =>
    intro A fuel C h hf
    obtain ⟨h1, h2⟩ := h a (by simp)
    cases fuel with
    | zero => simp at hf
    | succ fuel =>
      have hn := C.nx A a l rfl
      rw [siblings, List.headD_cons, if_neg (by simp [h1]), It.incr]
      dsimp only
      unfold T.rd
      rw [if_neg h1, if_pos h2, Option.map_some, Option.bind_some, hn, ih (A ++ [a]) fuel (by simpa using C)
        (fun x hx => h x (by simp [hx])) (by simp at hf; omega)]
      rfl

theorem kidIts_spec {t : T α} {g : Forest α} (H : Hung t g) {i : Nat} (hi : i ∈ ids g) (q : Nat) :
    kidIts t ⟨q, i⟩ = some ((kidsOf g i).map (It.mk i)) := by
  have C := H.chain i hi
  have hi0 : i ≠ 0 := by rintro rfl; exact H.zero hi
  unfold kidIts It.begin It.fin T.rd
  dsimp only
  rw [if_neg hi0, if_neg hi0, if_pos (H.lt i hi), Option.map_some, Option.bind_some, Option.bind_some, C.head]
  apply siblings_spec _ [] _ C
  · intro x hx
    have := kidsOf_sub g i x hx
    exact ⟨by rintro rfl; exact H.zero this, H.lt x this⟩
  · have := children_nodup H.nd i
    rw [children, if_neg hi0] at this
    exact len_le_of_lt this (fun x hx => H.lt x (kidsOf_sub g i x hx))

/-- The iterator of the node `i`. -/
def mkIt (t : T α) (i : Nat) : It := ⟨t.parent i, i⟩

theorem kidIts_mk {t : T α} {g : Forest α} (H : Hung t g) {i : Nat} (hi : i ∈ ids g) (q : Nat) :
    kidIts t ⟨q, i⟩ = some ((kidsOf g i).map (mkIt t)) := by
  rw [kidIts_spec H hi q]
  congr 1
  apply List.map_congr_left
  intro x hx
  rw [mkIt, (H.chain i hi).par x hx]

theorem append_nil' (f : Forest α) : append f .nil = f := by
  induction f with
  | nil => rfl
  | cons i v k s _ hs => rw [append, hs]

theorem append_assoc' (f g h : Forest α) : append (append f g) h = append f (append g h) := by
  induction f with
  | nil => rfl
  | cons i v k s _ hs => rw [append, append, append, hs]

theorem roots_append (f g : Forest α) : roots (append f g) = roots f ++ roots g := by
  induction f with
  | nil => rfl
  | cons i v k s _ hs => simp [append, roots, hs]

theorem ids_append (f g : Forest α) : ids (append f g) = ids f ++ ids g := by
  induction f with
  | nil => rfl
  | cons i v k s _ hs => simp [append, ids, hs]

theorem nextLevel_append (f g : Forest α) : nextLevel (append f g) = append (nextLevel f) (nextLevel g) := by
  induction f with
  | nil => rfl
  | cons i v k s _ hs => rw [append, nextLevel, nextLevel, hs, append_assoc']

theorem kidsOf_append_right {k : Forest α} {q : Nat} (h : q ∉ ids k) (g : Forest α) : kidsOf (append k g) q = kidsOf g q := by
  induction k with
  | nil => rfl
  | cons i v c s _ hs =>
    simp only [ids, List.mem_cons, List.mem_append, not_or] at h
    rw [append, kidsOf, if_neg h.1, kidsOf_nil h.2.1, List.nil_append, hs h.2.2]

theorem kidsOf_append_left {k g : Forest α} {q : Nat} (h : q ∉ ids g) : kidsOf (append k g) q = kidsOf k q := by
  induction k with
  | nil => rw [append, kidsOf_nil h]; rfl
  | cons i v c s _ hs => rw [append, kidsOf, kidsOf, hs]

theorem Hung.append {t : T α} {f g : Forest α} (F : Hung t f) (G : Hung t g) (d : ∀ x ∈ ids f, x ∉ ids g) :
    Hung t (append f g) := by
  refine ⟨?_, ?_, ?_, ?_⟩
  · rw [ids_append, List.nodup_append]
    exact ⟨F.nd, G.nd, fun a ha b hb e => d a ha (e ▸ hb)⟩
  · rw [ids_append, List.mem_append]; rintro (w | w)
    · exact F.zero w
    · exact G.zero w
  · intro x hx
    rw [ids_append, List.mem_append] at hx
    exact hx.elim (F.lt x) (G.lt x)
  · intro p hp
    rw [ids_append, List.mem_append] at hp
    rcases hp with w | w
    · rw [kidsOf_append_left (d p w)]; exact F.chain p w
    · rw [kidsOf_append_right (fun w' => d p w' w)]; exact G.chain p w

theorem visit_nil (next : List It → Option (List It)) (fuel : Nat) : visit next fuel [] = some [] := by
  rw [visit.eq_def]; rfl

/-- Document order. -/
theorem visit_stack {t : T α} : ∀ (fuel : Nat) (g : Forest α), Hung t g → g.size ≤ fuel →
    visit (stackNext t) fuel ((roots g).map (mkIt t)) = some ((ids g).map (mkIt t)) := by
  intro fuel
  induction fuel with
  | zero =>
    intro g H h
    cases g with
    | nil => exact visit_nil _ _
    | cons i v k g => simp [Forest.size, ids] at h
  | succ fuel ih =>
    intro g H h
    cases g with
    | nil => exact visit_nil _ _
    | cons i v k g =>
      have hi : i ∈ ids (Forest.cons i v k g) := by simp [ids]
      have hc := nodup_cons H.nd
      rw [roots, List.map_cons, visit, if_neg (by simp [iterEq])]
      rw [stackNext, mkIt, kidIts_mk H hi, kidsOf_self, Option.map_some, Option.bind_some, ← List.map_append,
        ← roots_append, ih _ (H.kids.append H.rest hc.2.2.2.2)]
      · rw [Option.map_some, ids_append, ids, List.map_cons]; rfl
      · rw [size_cons] at h
        have : (append k g).size = k.size + g.size := by simp [Forest.size, ids_append]
        omega

theorem levels_nil (n : Nat) : levels n (.nil : Forest α) = [] := by
  induction n with
  | zero => rfl
  | succ n ih => rw [levels, roots, nextLevel, ih]; rfl

theorem size_append (f g : Forest α) : (append f g).size = f.size + g.size := by simp [Forest.size, ids_append]

theorem size_nextLevel (f : Forest α) : (nextLevel f).size + (roots f).length = f.size := by
  induction f with
  | nil => rfl
  | cons i v k s _ hs => rw [nextLevel, size_append, size_cons, roots, List.length_cons]; omega

/-- Level order: `f` is what is left of the current level, `g` the next level so far. -/
theorem visit_queue {t : T α} : ∀ (fuel n : Nat) (f g : Forest α), Hung t (append f g) → f.size + g.size ≤ fuel →
    f.size + g.size ≤ n →
    visit (queueNext t) fuel (((roots f) ++ (roots g)).map (mkIt t)) =
      some ((roots f ++ levels n (append g (nextLevel f))).map (mkIt t)) := by
  intro fuel
  induction fuel with
  | zero =>
    intro n f g H h hn
    cases f with
    | cons i v k s => rw [size_cons] at h; omega
    | nil =>
      cases g with
      | cons i v k s => rw [size_cons] at h; omega
      | nil => simp only [roots, List.append_nil, List.map_nil, visit_nil, append, nextLevel, levels_nil]
  | succ fuel ih =>
    have main : ∀ (n : Nat) (f g : Forest α), f ≠ .nil → Hung t (append f g) → f.size + g.size ≤ fuel + 1 →
        f.size + g.size ≤ n →
        visit (queueNext t) (fuel + 1) (((roots f) ++ (roots g)).map (mkIt t)) =
          some ((roots f ++ levels n (append g (nextLevel f))).map (mkIt t)) := by
      intro n f g hf H h hn
      cases f with
      | nil => exact absurd rfl hf
      | cons i v k s =>
        rw [size_cons] at h hn
        have hi : i ∈ ids (append (Forest.cons i v k s) g) := by simp [append, ids]
        have hc := nodup_cons H.nd
        rw [append] at H
        have hap : ∀ x, x ∈ ids s → x ∉ ids g := by
          intro x h1 h2
          have := H.rest.nd
          rw [ids_append, List.nodup_append] at this
          exact this.2.2 x h1 x h2 rfl
        have H' : Hung t (append s (append g k)) := by
          have h1 := H.rest.append H.kids (fun x h1 h2 => hc.2.2.2.2 x h2 h1)
          rwa [append_assoc'] at h1
        rw [roots, List.cons_append, List.map_cons, visit, if_neg (by simp [iterEq])]
        rw [queueNext, mkIt, kidIts_mk H (by simp [ids]), kidsOf_self, Option.map_some, Option.bind_some, ← List.map_append,
          List.append_assoc, ← roots_append, ih n s (append g k) H' (by rw [size_append]; omega)
            (by rw [size_append]; omega), Option.map_some, List.cons_append, List.map_cons, nextLevel, append_assoc']
        rfl
    intro n f g H h hn
    by_cases hf : f = .nil
    · subst hf
      by_cases hg : g = .nil
      · subst hg
        simp only [roots, List.append_nil, List.map_nil, visit_nil, append, nextLevel, levels_nil]
      · cases n with
        | zero =>
          cases g with
          | nil => exact absurd rfl hg
          | cons i v k s => rw [size_cons] at hn; omega
        | succ n =>
          have hs := size_nextLevel g
          have hr : 0 < (roots g).length := by
            cases g with
            | nil => exact absurd rfl hg
            | cons i v k s => simp [roots]
          simp only [append] at H
          simp only [roots, List.nil_append, append, nextLevel, append_nil', levels]
          have := main (n + 1) g .nil hg (by rw [append_nil']; exact H) (by simpa [Forest.size, ids] using h)
            (by simpa [Forest.size, ids] using hn)
          rw [roots, List.append_nil] at this
          rw [this]
          congr 2
          rw [append]
          congr 1
          have hlev : ∀ (n : Nat) (f : Forest α), f.size ≤ n → levels (n + 1) f = levels n f := by
            intro n
            induction n with
            | zero =>
              intro f h
              cases f with
              | nil => rfl
              | cons i v k s => rw [size_cons] at h; omega
            | succ n ih =>
              intro f h
              rw [levels, levels]
              congr 1
              cases f with
              | nil => simp only [nextLevel, levels_nil, roots, List.append_nil]
              | cons i v k s =>
                apply ih
                have := size_nextLevel (Forest.cons i v k s)
                simp [roots] at this
                omega
          apply hlev
          simp only [Forest.size, ids, List.length_nil] at hn hs ⊢
          omega
    · exact main n f g hf H h hn

end Verif.Proof.Tree
