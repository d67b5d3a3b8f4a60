import Verif.Spec.Forest
import Mathlib.Data.List.Basic
import Mathlib.Data.List.Perm.Basic
import Mathlib.Data.List.Nodup
import Mathlib.Data.List.Perm.Subperm
import Mathlib.Tactic.Tauto
import Batteries.Tactic.Init

/-! Facts about the forests of the specification. -/
namespace Verif.Spec.Forest
variable {α : Type}

theorem ids_eq (f : Forest α) : ids f = (nodes f).map Prod.fst := by
  induction f with
  | nil => rfl
  | cons i v k s hk hs => simp [ids, nodes, hk, hs]

theorem roots_sub (f : Forest α) : ∀ x ∈ roots f, x ∈ ids f := by
  induction f with
  | nil => simp [roots]
  | cons i v k s _ hs =>
    intro x hx
    simp only [roots, ids, List.mem_cons, List.mem_append] at hx ⊢
    rcases hx with w | w
    · exact Or.inl w
    · exact Or.inr (Or.inr (hs x w))

theorem kidsOf_sub (f : Forest α) (q : Nat) : ∀ x ∈ kidsOf f q, x ∈ ids f := by
  induction f with
  | nil => simp [kidsOf]
  | cons i v k s hk hs =>
    intro x hx
    simp only [kidsOf] at hx
    simp only [ids, List.mem_cons, List.mem_append]
    split at hx
    · exact Or.inr (Or.inl (roots_sub k x hx))
    · rcases List.mem_append.mp hx with w | w
      · exact Or.inr (Or.inl (hk x w))
      · exact Or.inr (Or.inr (hs x w))

theorem kidsOf_nil {f : Forest α} {q : Nat} (h : q ∉ ids f) : kidsOf f q = [] := by
  induction f with
  | nil => rfl
  | cons i v k s hk hs =>
    simp only [ids, List.mem_cons, List.mem_append, not_or] at h
    rw [kidsOf, if_neg h.1, hk h.2.1, hs h.2.2]; rfl

theorem find_none {f : Forest α} {q : Nat} (h : q ∉ ids f) : find f q = none := by
  induction f with
  | nil => rfl
  | cons i v k s hk hs =>
    simp only [ids, List.mem_cons, List.mem_append, not_or] at h
    rw [find, if_neg h.1, hk h.2.1, hs h.2.2]; rfl

theorem parentIn_none {f : Forest α} {p q : Nat} (h : q ∉ ids f) : parentIn f p q = none := by
  induction f generalizing p with
  | nil => rfl
  | cons i v k s hk hs =>
    simp only [ids, List.mem_cons, List.mem_append, not_or] at h
    rw [parentIn, if_neg h.1, hk h.2.1, hs h.2.2]; rfl

theorem insertUnder_not_mem {f : Forest α} {p pos n v k} (h : p ∉ ids f) : insertUnder p pos n v k f = f := by
  induction f with
  | nil => rfl
  | cons i w c s hk hs =>
    simp only [ids, List.mem_cons, List.mem_append, not_or] at h
    rw [insertUnder, if_neg (fun e => h.1 e.symm), hk h.2.1, hs h.2.2]

theorem erase_not_mem {f : Forest α} {x} (h : x ∉ ids f) : erase x f = f := by
  induction f with
  | nil => rfl
  | cons i w c s hk hs =>
    simp only [ids, List.mem_cons, List.mem_append, not_or] at h
    rw [erase, if_neg (fun e => h.1 e.symm), hk h.2.1, hs h.2.2]

/-- The parts of a `Nodup` cons. -/
theorem nodup_cons {i : Nat} {v : α} {k s : Forest α} (nd : (ids (cons i v k s)).Nodup) :
    i ∉ ids k ∧ i ∉ ids s ∧ (ids k).Nodup ∧ (ids s).Nodup ∧ ∀ x, x ∈ ids k → x ∉ ids s := by
  simp only [ids, List.nodup_cons, List.mem_append, not_or] at nd
  obtain ⟨⟨a, b⟩, c⟩ := nd
  have := List.nodup_append.mp c
  exact ⟨a, b, this.1, this.2.1, fun x hx hy => this.2.2 x hx x hy rfl⟩

theorem kidsOf_left {i q : Nat} {v : α} {k s : Forest α} (nd : (ids (cons i v k s)).Nodup) (h : q ∈ ids k) :
    kidsOf (cons i v k s) q = kidsOf k q := by
  obtain ⟨a, b, _, _, e⟩ := nodup_cons nd
  rw [kidsOf, if_neg (by rintro rfl; exact a h), kidsOf_nil (e q h), List.append_nil]

theorem kidsOf_right {i q : Nat} {v : α} {k s : Forest α} (nd : (ids (cons i v k s)).Nodup) (h : q ∈ ids s) :
    kidsOf (cons i v k s) q = kidsOf s q := by
  obtain ⟨a, b, _, _, e⟩ := nodup_cons nd
  rw [kidsOf, if_neg (by rintro rfl; exact b h), kidsOf_nil (fun w => e q w h), List.nil_append]

theorem kidsOf_self {i : Nat} {v : α} {k s : Forest α} : kidsOf (cons i v k s) i = roots k := by
  rw [kidsOf, if_pos rfl]

section insertBefore
variable {pos n : Nat} {v : α} {k : Forest α}

theorem nodes_insertBefore (f : Forest α) :
    (nodes (insertBefore pos n v k f)).Perm ((n, v) :: nodes k ++ nodes f) := by
  induction f with
  | nil => simp [insertBefore, nodes]
  | cons i w c s _ hs =>
    rw [insertBefore]
    split
    · simp [nodes]
    · simp only [nodes]
      refine (List.Perm.cons (i, w) (List.Perm.append_left (nodes c) hs)).trans ?_
      classical
      rw [List.perm_iff_count]
      intro a
      simp only [List.count_cons, List.count_append]; omega

theorem ids_insertBefore (f : Forest α) : (ids (insertBefore pos n v k f)).Perm (n :: ids k ++ ids f) := by
  have := (nodes_insertBefore (pos := pos) (n := n) (v := v) (k := k) f).map Prod.fst
  simpa [ids_eq] using this

theorem roots_insertBefore (f : Forest α) (hp : pos = 0 ∨ pos ∈ roots f) (h0 : 0 ∉ roots f) :
    ∃ A B, roots f = A ++ B ∧ B.headD 0 = pos ∧ roots (insertBefore pos n v k f) = A ++ n :: B := by
  induction f with
  | nil =>
    rcases hp with rfl | w
    · exact ⟨[], [], rfl, rfl, rfl⟩
    · simp [roots] at w
  | cons i w c s _ hs =>
    simp only [roots, List.mem_cons, not_or] at hp h0
    rw [insertBefore]
    by_cases hi : i = pos
    · rw [if_pos hi]
      exact ⟨[], i :: roots s, rfl, hi, rfl⟩
    · rw [if_neg hi]
      obtain ⟨A, B, e1, e2, e3⟩ := hs (by
        rcases hp with w | w | w
        · exact Or.inl w
        · exact absurd w.symm hi
        · exact Or.inr w) h0.2
      exact ⟨i :: A, B, by simp [roots, e1], e2, by simp [roots, e3]⟩

theorem kidsOf_insertBefore_other (f : Forest α) {q : Nat} (hn : q ≠ n) (hk : q ∉ ids k) :
    kidsOf (insertBefore pos n v k f) q = kidsOf f q := by
  induction f with
  | nil => simp [insertBefore, kidsOf, hn, kidsOf_nil hk]
  | cons i w c s _ hs =>
    rw [insertBefore]
    split
    · rw [kidsOf, if_neg hn, kidsOf_nil hk, List.nil_append]
    · rw [kidsOf, kidsOf, hs]

theorem kidsOf_insertBefore_new (f : Forest α) (h : n ∉ ids f) : kidsOf (insertBefore pos n v k f) n = roots k := by
  induction f with
  | nil => simp [insertBefore, kidsOf]
  | cons i w c s _ hs =>
    simp only [ids, List.mem_cons, List.mem_append, not_or] at h
    rw [insertBefore]
    split
    · rw [kidsOf_self]
    · rw [kidsOf, if_neg h.1, kidsOf_nil h.2.1, hs h.2.2, List.nil_append]

theorem kidsOf_insertBefore_sub (f : Forest α) {q : Nat} (hn : q ≠ n) (hf : q ∉ ids f) :
    kidsOf (insertBefore pos n v k f) q = kidsOf k q := by
  induction f with
  | nil => simp [insertBefore, kidsOf, hn]
  | cons i w c s _ hs =>
    have hf' := hf
    simp only [ids, List.mem_cons, List.mem_append, not_or] at hf
    rw [insertBefore]
    split
    · rw [kidsOf, if_neg hn, kidsOf_nil hf', List.append_nil]
    · rw [kidsOf, if_neg hf.1, kidsOf_nil hf.2.1, hs hf.2.2, List.nil_append]

end insertBefore

section insertUnder
variable {p pos n : Nat} {v : α} {k : Forest α}

theorem roots_insertUnder (f : Forest α) : roots (insertUnder p pos n v k f) = roots f := by
  induction f with
  | nil => rfl
  | cons i w c s _ hs => simp [insertUnder, roots, hs]

theorem nodes_insertUnder (f : Forest α) (nd : (ids f).Nodup) (hp : p ∈ ids f) :
    (nodes (insertUnder p pos n v k f)).Perm ((n, v) :: nodes k ++ nodes f) := by
  induction f with
  | nil => simp [ids] at hp
  | cons i w c s hc hs =>
    obtain ⟨a, b, ndc, nds, e⟩ := nodup_cons nd
    rw [insertUnder]
    by_cases hi : i = p
    · subst hi
      rw [if_pos rfl, insertUnder_not_mem b]
      simp only [nodes]
      refine (List.Perm.cons (i, w) (List.Perm.append_right (nodes s) (nodes_insertBefore c))).trans ?_
      classical
      rw [List.perm_iff_count]
      intro a
      simp only [List.count_cons, List.count_append]; omega
    · rw [if_neg hi]
      simp only [ids, List.mem_cons, List.mem_append] at hp
      simp only [nodes]
      rcases hp with hp | hp | hp
      · exact absurd hp.symm hi
      · rw [insertUnder_not_mem (e p hp)]
        refine (List.Perm.cons (i, w) (List.Perm.append_right (nodes s) (hc ndc hp))).trans ?_
        classical
        rw [List.perm_iff_count]
        intro a
        simp only [List.count_cons, List.count_append]; omega
      · rw [insertUnder_not_mem (fun w => e p w hp)]
        refine (List.Perm.cons (i, w) (List.Perm.append_left (nodes c) (hs nds hp))).trans ?_
        classical
        rw [List.perm_iff_count]
        intro a
        simp only [List.count_cons, List.count_append]; omega

theorem kidsOf_insertUnder_self (f : Forest α) (nd : (ids f).Nodup) (hp : p ∈ ids f) (h0 : 0 ∉ ids f)
    (hpos : pos = 0 ∨ pos ∈ kidsOf f p) :
    ∃ A B, kidsOf f p = A ++ B ∧ B.headD 0 = pos ∧ kidsOf (insertUnder p pos n v k f) p = A ++ n :: B := by
  induction f with
  | nil => simp [ids] at hp
  | cons i w c s hc hs =>
    obtain ⟨a, b, ndc, nds, e⟩ := nodup_cons nd
    have h0' := h0
    simp only [ids, List.mem_cons, List.mem_append, not_or] at hp h0
    by_cases hi : p = i
    · subst hi
      rw [insertUnder, if_pos rfl, kidsOf_self, kidsOf_self]
      rw [kidsOf_self] at hpos
      exact roots_insertBefore c hpos (fun w => h0.2.1 (roots_sub c 0 w))
    · rw [insertUnder, if_neg (fun w => hi w.symm)]
      rcases hp with hp | hp | hp
      · exact absurd hp hi
      · rw [kidsOf_left nd hp] at hpos ⊢
        obtain ⟨A, B, e1, e2, e3⟩ := hc ndc hp h0.2.1 hpos
        refine ⟨A, B, e1, e2, ?_⟩
        rw [kidsOf, if_neg hi, insertUnder_not_mem (e p hp), kidsOf_nil (e p hp), List.append_nil, e3]
      · have hpc : p ∉ ids c := fun w => e p w hp
        rw [kidsOf_right nd hp] at hpos ⊢
        obtain ⟨A, B, e1, e2, e3⟩ := hs nds hp h0.2.2 hpos
        refine ⟨A, B, e1, e2, ?_⟩
        rw [kidsOf, if_neg hi, insertUnder_not_mem hpc, kidsOf_nil hpc, List.nil_append, e3]

theorem kidsOf_insertUnder_other (f : Forest α) (nd : (ids f).Nodup) {q : Nat} (hq : q ≠ p) (hn : q ≠ n)
    (hk : q ∉ ids k) : kidsOf (insertUnder p pos n v k f) q = kidsOf f q := by
  induction f with
  | nil => rfl
  | cons i w c s hc hs =>
    obtain ⟨a, b, ndc, nds, e⟩ := nodup_cons nd
    rw [insertUnder, kidsOf, kidsOf]
    by_cases hi : q = i
    · subst hi
      rw [if_pos rfl, if_pos rfl, if_neg hq, roots_insertUnder]
    · rw [if_neg hi, if_neg hi, hs nds]
      by_cases h : i = p
      · rw [if_pos h, kidsOf_insertBefore_other c hn hk]
      · rw [if_neg h, hc ndc]

theorem kidsOf_insertUnder_new (f : Forest α) (nd : (ids f).Nodup) (hp : p ∈ ids f) (hf : n ∉ ids f) :
    kidsOf (insertUnder p pos n v k f) n = roots k := by
  induction f with
  | nil => simp [ids] at hp
  | cons i w c s hc hs =>
    obtain ⟨a, b, ndc, nds, e⟩ := nodup_cons nd
    simp only [ids, List.mem_cons, List.mem_append, not_or] at hp hf
    rw [insertUnder, kidsOf, if_neg hf.1]
    by_cases hi : i = p
    · subst hi
      rw [if_pos rfl, insertUnder_not_mem b, kidsOf_nil hf.2.2, List.append_nil, kidsOf_insertBefore_new c hf.2.1]
    · rw [if_neg hi]
      rcases hp with hp | hp | hp
      · exact absurd hp.symm hi
      · rw [insertUnder_not_mem (e p hp), kidsOf_nil hf.2.2, List.append_nil, hc ndc hp hf.2.1]
      · rw [insertUnder_not_mem (fun w => e p w hp), kidsOf_nil hf.2.1, List.nil_append, hs nds hp hf.2.2]

theorem kidsOf_insertUnder_sub (f : Forest α) (nd : (ids f).Nodup) (hp : p ∈ ids f) {q : Nat} (hn : q ≠ n)
    (hf : q ∉ ids f) : kidsOf (insertUnder p pos n v k f) q = kidsOf k q := by
  induction f with
  | nil => simp [ids] at hp
  | cons i w c s hc hs =>
    obtain ⟨a, b, ndc, nds, e⟩ := nodup_cons nd
    simp only [ids, List.mem_cons, List.mem_append, not_or] at hp hf
    rw [insertUnder, kidsOf, if_neg hf.1]
    by_cases hi : i = p
    · subst hi
      rw [if_pos rfl, insertUnder_not_mem b, kidsOf_nil hf.2.2, List.append_nil, kidsOf_insertBefore_sub c hn hf.2.1]
    · rw [if_neg hi]
      rcases hp with hp | hp | hp
      · exact absurd hp.symm hi
      · rw [insertUnder_not_mem (e p hp), kidsOf_nil hf.2.2, List.append_nil, hc ndc hp hf.2.1]
      · rw [insertUnder_not_mem (fun w => e p w hp), kidsOf_nil hf.2.1, List.nil_append, hs nds hp hf.2.2]

end insertUnder

/-- Inserting a tree: the effect on the child lists. -/
theorem insert_spec {p pos n : Nat} {v : α} {k f : Forest α} (nd : (ids f).Nodup) (h0 : 0 ∉ ids f)
    (hp : IsPos f p pos) (hn : n ∉ ids f) (hn0 : n ≠ 0) (hk : ∀ x ∈ ids k, x ∉ ids f ∧ x ≠ n ∧ x ≠ 0) :
    ∃ A B, children f p = A ++ B ∧ B.headD 0 = pos ∧ children (insert p pos n v k f) p = A ++ n :: B ∧
      (∀ q, q ≠ p → q = 0 ∨ q ∈ ids f → children (insert p pos n v k f) q = children f q) ∧
      (∀ q ∈ ids k, children (insert p pos n v k f) q = kidsOf k q) ∧
      children (insert p pos n v k f) n = roots k ∧
      (nodes (insert p pos n v k f)).Perm ((n, v) :: nodes k ++ nodes f) := by
  unfold IsPos at hp
  by_cases hp0 : p = 0
  · subst hp0
    simp only [children, if_true] at hp ⊢
    obtain ⟨A, B, e1, e2, e3⟩ := roots_insertBefore (n := n) (v := v) (k := k) f hp.2 (fun w => h0 (roots_sub f 0 w))
    unfold insert
    rw [if_pos rfl]
    refine ⟨A, B, e1, e2, e3, ?_, ?_, ?_, nodes_insertBefore f⟩
    · intro q hq hq'
      have hqf := hq'.resolve_left hq
      rw [if_neg hq, if_neg hq, kidsOf_insertBefore_other f (by rintro rfl; exact hn hqf) (fun w => (hk q w).1 hqf)]
    · intro q hq
      rw [if_neg (hk q hq).2.2, kidsOf_insertBefore_sub f (hk q hq).2.1 (hk q hq).1]
    · rw [if_neg hn0, kidsOf_insertBefore_new f hn]
  · have hpf := hp.1.resolve_left hp0
    have hpos := hp.2
    simp only [children, if_neg hp0] at hpos ⊢
    obtain ⟨A, B, e1, e2, e3⟩ := kidsOf_insertUnder_self (n := n) (v := v) (k := k) f nd hpf h0 hpos
    unfold insert
    rw [if_neg hp0]
    refine ⟨A, B, e1, e2, e3, ?_, ?_, ?_, nodes_insertUnder f nd hpf⟩
    · intro q hq hq'
      by_cases hq0 : q = 0
      · rw [if_pos hq0, if_pos hq0, roots_insertUnder]
      · have hqf := hq'.resolve_left hq0
        rw [if_neg hq0, if_neg hq0,
          kidsOf_insertUnder_other f nd hq (by rintro rfl; exact hn hqf) (fun w => (hk q w).1 hqf)]
    · intro q hq
      rw [if_neg (hk q hq).2.2, kidsOf_insertUnder_sub f nd hpf (hk q hq).2.1 (hk q hq).1]
    · rw [if_neg hn0, kidsOf_insertUnder_new f nd hpf hn]

theorem nodes_erase {f : Forest α} (nd : (ids f).Nodup) {x v k} (h : find f x = some (v, k)) :
    (nodes f).Perm ((x, v) :: nodes k ++ nodes (erase x f)) := by
  induction f with
  | nil => simp [find] at h
  | cons i w c s hc hs =>
    obtain ⟨a, b, ndc, nds, e⟩ := nodup_cons nd
    rw [find] at h
    by_cases hi : x = i
    · subst hi
      rw [if_pos rfl] at h
      obtain ⟨rfl, rfl⟩ := by simpa using h
      rw [erase, if_pos rfl]; rfl
    · rw [if_neg hi] at h
      rw [erase, if_neg (fun w => hi w.symm)]
      cases hf : find c x with
      | some r =>
        rw [hf] at h
        simp only [Option.some_or, Option.some.injEq] at h
        subst h
        have hx : x ∈ ids c := by
          by_contra hx
          rw [find_none hx] at hf; simp at hf
        rw [erase_not_mem (e x hx)]
        simp only [nodes]
        refine (List.Perm.cons (i, w) (List.Perm.append_right (nodes s) (hc ndc hf))).trans ?_
        classical
        rw [List.perm_iff_count]
        intro a
        simp only [List.count_cons, List.count_append]; omega
      | none =>
        rw [hf] at h
        simp only [Option.none_or] at h
        have hx : x ∈ ids s := by
          by_contra hx
          rw [find_none hx] at h; simp at h
        rw [erase_not_mem (fun w => e x w hx)]
        simp only [nodes]
        refine (List.Perm.cons (i, w) (List.Perm.append_left (nodes c) (hs nds h))).trans ?_
        classical
        rw [List.perm_iff_count]
        intro a
        simp only [List.count_cons, List.count_append]; omega

theorem find_some {f : Forest α} {x : Nat} (h : x ∈ ids f) : ∃ v k, find f x = some (v, k) := by
  induction f with
  | nil => simp [ids] at h
  | cons i w c s hc hs =>
    simp only [ids, List.mem_cons, List.mem_append] at h
    rw [find]
    by_cases hi : x = i
    · exact ⟨w, c, by rw [if_pos hi]⟩
    · rw [if_neg hi]
      by_cases hx : x ∈ ids c
      · obtain ⟨v, k, e⟩ := hc hx
        exact ⟨v, k, by rw [e]; rfl⟩
      · obtain ⟨v, k, e⟩ := hs ((h.resolve_left hi).resolve_left hx)
        exact ⟨v, k, by rw [find_none hx, e]; rfl⟩

/-- The child lists inside the found tree are those of the forest. -/
theorem find_kids {f : Forest α} (nd : (ids f).Nodup) {x v k} (h : find f x = some (v, k)) :
    kidsOf f x = roots k ∧ ∀ q ∈ ids k, kidsOf f q = kidsOf k q := by
  induction f with
  | nil => simp [find] at h
  | cons i w c s hc hs =>
    obtain ⟨a, b, ndc, nds, e⟩ := nodup_cons nd
    have hsub : ∀ {f : Forest α}, (ids f).Nodup → find f x = some (v, k) → ∀ q ∈ ids k, q ∈ ids f := by
      intro f nd h q hq
      have := (nodes_erase nd h).map Prod.fst
      rw [← ids_eq, List.map_append, List.map_cons, ← ids_eq] at this
      exact this.mem_iff.mpr (by simp [hq])
    rw [find] at h
    by_cases hi : x = i
    · subst hi
      rw [if_pos rfl] at h
      obtain ⟨rfl, rfl⟩ := by simpa using h
      exact ⟨kidsOf_self, fun q hq => kidsOf_left nd hq⟩
    · rw [if_neg hi] at h
      cases hf : find c x with
      | some r =>
        rw [hf] at h
        simp only [Option.some_or, Option.some.injEq] at h
        subst h
        have hx : x ∈ ids c := by
          by_contra hx
          rw [find_none hx] at hf; simp at hf
        obtain ⟨h1, h2⟩ := hc ndc hf
        refine ⟨by rw [kidsOf_left nd hx, h1], fun q hq => ?_⟩
        rw [kidsOf_left nd (hsub ndc hf q hq), h2 q hq]
      | none =>
        rw [hf] at h
        simp only [Option.none_or] at h
        have hx : x ∈ ids s := by
          by_contra hx
          rw [find_none hx] at h; simp at h
        obtain ⟨h1, h2⟩ := hs nds h
        refine ⟨by rw [kidsOf_right nd hx, h1], fun q hq => ?_⟩
        rw [kidsOf_right nd (hsub nds h q hq), h2 q hq]

theorem ids_erase_sub {f : Forest α} {x q : Nat} (h : q ∈ ids (erase x f)) : q ∈ ids f := by
  induction f with
  | nil => exact h
  | cons i w c s hc hs =>
    rw [erase] at h
    simp only [ids, List.mem_cons, List.mem_append]
    split at h
    · exact Or.inr (Or.inr h)
    · simp only [ids, List.mem_cons, List.mem_append] at h
      rcases h with h | h | h
      · exact Or.inl h
      · exact Or.inr (Or.inl (hc h))
      · exact Or.inr (Or.inr (hs h))

/-- The place of `x` among its siblings. -/
theorem parentIn_erase {f : Forest α} (nd : (ids f).Nodup) {x o : Nat} (h : x ∈ ids f) :
    (x ∈ roots f ∧ parentIn f o x = some o ∧ (∃ A B, roots f = A ++ x :: B ∧ roots (erase x f) = A ++ B) ∧
      ∀ q ∈ ids (erase x f), kidsOf (erase x f) q = kidsOf f q) ∨
    (x ∉ roots f ∧ ∃ p, parentIn f o x = some p ∧ p ∈ ids (erase x f) ∧ roots (erase x f) = roots f ∧
      (∃ A B, kidsOf f p = A ++ x :: B ∧ kidsOf (erase x f) p = A ++ B) ∧
      ∀ q ∈ ids (erase x f), q ≠ p → kidsOf (erase x f) q = kidsOf f q) := by
  induction f generalizing o with
  | nil => simp [ids] at h
  | cons i w c s hc hs =>
    obtain ⟨a, b, ndc, nds, e⟩ := nodup_cons nd
    simp only [ids, List.mem_cons, List.mem_append] at h
    by_cases hi : x = i
    · subst hi
      left
      rw [erase, if_pos rfl]
      refine ⟨by simp [roots], by rw [parentIn, if_pos rfl], ⟨[], roots s, rfl, rfl⟩, fun q hq => ?_⟩
      rw [kidsOf_right nd hq]
    · have her : erase x (cons i w c s) = cons i w (erase x c) (erase x s) := by
        rw [erase, if_neg (fun w => hi w.symm)]
      rw [her, parentIn, if_neg hi]
      by_cases hx : x ∈ ids c
      · have hxs := e x hx
        have hxr : x ∉ roots (cons i w c s) := by
          simp only [roots, List.mem_cons, not_or]
          exact ⟨hi, fun w => hxs (roots_sub s x w)⟩
        right
        refine ⟨hxr, ?_⟩
        rw [erase_not_mem hxs]
        rcases hc (o := i) ndc hx with ⟨h1, h2, ⟨A, B, h3, h4⟩, h5⟩ | ⟨h1, p, h2, h3, h4, ⟨A, B, h5, h6⟩, h7⟩
        · refine ⟨i, by rw [h2]; rfl, by simp [ids], rfl, ⟨A, B, by rw [kidsOf_self, h3], by rw [kidsOf_self, h4]⟩, ?_⟩
          intro q hq hqi
          rw [kidsOf, kidsOf, if_neg hqi, if_neg hqi]
          congr 1
          by_cases hqc : q ∈ ids (erase x c)
          · exact h5 q hqc
          · have hqs : q ∈ ids s := by
              simp only [ids, List.mem_cons, List.mem_append] at hq
              exact (hq.resolve_left hqi).resolve_left hqc
            rw [kidsOf_nil hqc, kidsOf_nil (fun w => e q w hqs)]
        · have hpc := ids_erase_sub h3
          have hpi : p ≠ i := by rintro rfl; exact a hpc
          refine ⟨p, by rw [h2]; rfl, by simp [ids, h3], rfl, ⟨A, B, ?_, ?_⟩, ?_⟩
          · rw [kidsOf_left nd hpc, h5]
          · rw [kidsOf, if_neg hpi, kidsOf_nil (e p hpc), List.append_nil, h6]
          · intro q hq hqp
            rw [kidsOf, kidsOf]
            by_cases hqi : q = i
            · rw [if_pos hqi, if_pos hqi, h4]
            · rw [if_neg hqi, if_neg hqi]
              congr 1
              by_cases hqc : q ∈ ids (erase x c)
              · exact h7 q hqc hqp
              · have hqs : q ∈ ids s := by
                  simp only [ids, List.mem_cons, List.mem_append] at hq
                  exact (hq.resolve_left hqi).resolve_left hqc
                rw [kidsOf_nil hqc, kidsOf_nil (fun w => e q w hqs)]
      · have hxs : x ∈ ids s := (h.resolve_left hi).resolve_left hx
        rw [erase_not_mem hx, parentIn_none hx, Option.none_or]
        rcases hs (o := o) nds hxs with ⟨h1, h2, ⟨A, B, h3, h4⟩, h5⟩ | ⟨h1, p, h2, h3, h4, ⟨A, B, h5, h6⟩, h7⟩
        · left
          refine ⟨by simp [roots, h1], h2, ⟨i :: A, B, by simp [roots, h3], by simp [roots, h4]⟩, ?_⟩
          intro q hq
          rw [kidsOf, kidsOf]
          by_cases hqi : q = i
          · rw [if_pos hqi, if_pos hqi]
          · rw [if_neg hqi, if_neg hqi]
            congr 1
            by_cases hqs : q ∈ ids (erase x s)
            · exact h5 q hqs
            · have hqc : q ∈ ids c := by
                simp only [ids, List.mem_cons, List.mem_append] at hq
                exact (hq.resolve_left hqi).resolve_right hqs
              rw [kidsOf_nil hqs, kidsOf_nil (e q hqc)]
        · right
          have hps := ids_erase_sub h3
          have hpi : p ≠ i := by rintro rfl; exact b hps
          have hpc : p ∉ ids c := fun w => e p w hps
          refine ⟨by simp [roots, hi, h1], p, h2, by simp [ids, h3], by simp [roots, h4], ⟨A, B, ?_, ?_⟩, ?_⟩
          · rw [kidsOf_right nd hps, h5]
          · rw [kidsOf, if_neg hpi, kidsOf_nil hpc, List.nil_append, h6]
          · intro q hq hqp
            rw [kidsOf, kidsOf]
            by_cases hqi : q = i
            · rw [if_pos hqi, if_pos hqi]
            · rw [if_neg hqi, if_neg hqi]
              congr 1
              by_cases hqs : q ∈ ids (erase x s)
              · exact h7 q hqs hqp
              · have hqc : q ∈ ids c := by
                  simp only [ids, List.mem_cons, List.mem_append] at hq
                  exact (hq.resolve_left hqi).resolve_right hqs
                rw [kidsOf_nil hqs, kidsOf_nil (e q hqc)]

/-- Erasing a tree: the effect on the child lists. -/
theorem erase_spec {f : Forest α} (nd : (ids f).Nodup) (h0 : 0 ∉ ids f) {x : Nat} (hx : x ∈ ids f) :
    ∃ v k p A B, find f x = some (v, k) ∧ parent? f x = some p ∧ (p = 0 ∨ p ∈ ids (erase x f)) ∧
      children f p = A ++ x :: B ∧ children (erase x f) p = A ++ B ∧
      (∀ q, q ≠ p → q = 0 ∨ q ∈ ids (erase x f) → children (erase x f) q = children f q) ∧
      children f x = roots k ∧ (∀ q ∈ ids k, children f q = kidsOf k q) ∧
      (nodes f).Perm ((x, v) :: nodes k ++ nodes (erase x f)) := by
  obtain ⟨v, k, hf⟩ := find_some hx
  have hperm := nodes_erase nd hf
  obtain ⟨k1, k2⟩ := find_kids nd hf
  have hids := hperm.map Prod.fst
  rw [← ids_eq, List.map_append, List.map_cons, ← ids_eq, ← ids_eq] at hids
  have hsub : ∀ q ∈ ids k, q ∈ ids f := fun q hq => hids.mem_iff.mpr (by simp [hq])
  have hne : ∀ q ∈ ids f, q ≠ 0 := by rintro q hq rfl; exact h0 hq
  have hc : ∀ q, q ≠ 0 → ∀ f : Forest α, children f q = kidsOf f q := fun q hq f => by rw [children, if_neg hq]
  rcases parentIn_erase (o := 0) nd hx with ⟨_, h2, ⟨A, B, h3, h4⟩, h5⟩ | ⟨_, p, h2, h3, h4, ⟨A, B, h5, h6⟩, h7⟩
  · refine ⟨v, k, 0, A, B, hf, h2, Or.inl rfl, by rw [children, if_pos rfl, h3], by rw [children, if_pos rfl, h4], ?_,
      by rw [hc x (hne x hx), k1], fun q hq => by rw [hc q (hne q (hsub q hq)), k2 q hq], hperm⟩
    intro q hq hq'
    rw [hc q hq, hc q hq, h5 q (hq'.resolve_left hq)]
  · have hp0 : p ≠ 0 := hne p (ids_erase_sub h3)
    refine ⟨v, k, p, A, B, hf, h2, Or.inr h3, by rw [hc p hp0, h5], by rw [hc p hp0, h6], ?_,
      by rw [hc x (hne x hx), k1], fun q hq => by rw [hc q (hne q (hsub q hq)), k2 q hq], hperm⟩
    intro q hq hq'
    by_cases hq0 : q = 0
    · rw [hq0, children, if_pos rfl, children, if_pos rfl, h4]
    · rw [hc q hq0, hc q hq0, h7 q (hq'.resolve_left hq0) hq]

end Verif.Spec.Forest
