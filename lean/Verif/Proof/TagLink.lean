import Verif.Model.TagTree
import Verif.Proof.TagSeg
import Mathlib.Data.List.Perm.Subperm
import Mathlib.Data.List.Induction

/-! Allocation, linking and freeing in the tag tree. -/
namespace Verif.Proof.TagTree
open Verif.Model.TagTree
variable {α : Type}

/-- The nodes `w` are linked in this order, `l` is the free list, `d` is detached. -/
structure Lk (t : T α) (w l d : List Nat) : Prop where
  nd : (0 :: (w ++ d ++ l)).Nodup
  range : ∀ i, i ∈ 0 :: (w ++ d ++ l) ↔ i < t.len
  sorted : l.Pairwise (· < ·)
  main : Seg t.next t.prev 0 w 0
  free : Seg t.tail t.head 0 l 0

section
variable {t : T α} {w l d : List Nat}

theorem Lk.len (R : Lk t w l d) : 0 < t.len := (R.range 0).mp (by simp)
theorem Lk.w_lt (R : Lk t w l d) {i} (h : i ∈ w) : i < t.len := (R.range i).mp (by simp [h])
theorem Lk.d_lt (R : Lk t w l d) {i} (h : i ∈ d) : i < t.len := (R.range i).mp (by simp [h])
theorem Lk.l_lt (R : Lk t w l d) {i} (h : i ∈ l) : i < t.len := (R.range i).mp (by simp [h])

theorem Lk.w0 (R : Lk t w l d) {i} (h : i ∈ w) : i ≠ 0 := by
  have := (List.nodup_cons.mp R.nd).1
  rintro rfl; exact this (by simp [h])
theorem Lk.d0 (R : Lk t w l d) {i} (h : i ∈ d) : i ≠ 0 := by
  have := (List.nodup_cons.mp R.nd).1
  rintro rfl; exact this (by simp [h])
theorem Lk.l0 (R : Lk t w l d) {i} (h : i ∈ l) : i ≠ 0 := by
  have := (List.nodup_cons.mp R.nd).1
  rintro rfl; exact this (by simp [h])

theorem Lk.ndw (R : Lk t w l d) : w.Nodup :=
  (List.nodup_append.mp (List.nodup_append.mp (List.nodup_cons.mp R.nd).2).1).1
theorem Lk.ndl (R : Lk t w l d) : l.Nodup := (List.nodup_append.mp (List.nodup_cons.mp R.nd).2).2.1
theorem Lk.wl (R : Lk t w l d) {i} (h : i ∈ w) : i ∉ l := fun h' =>
  (List.nodup_append.mp (List.nodup_cons.mp R.nd).2).2.2 i (by simp [h]) i h' rfl
theorem Lk.wd (R : Lk t w l d) {i} (h : i ∈ w) : i ∉ d := fun h' =>
  (List.nodup_append.mp (List.nodup_append.mp (List.nodup_cons.mp R.nd).2).1).2.2 i h i h' rfl
theorem Lk.dl (R : Lk t w l d) {i} (h : i ∈ d) : i ∉ l := fun h' =>
  (List.nodup_append.mp (List.nodup_cons.mp R.nd).2).2.2 i (by simp [h]) i h' rfl
end

theorem lk_empty [Inhabited α] : Lk (T.empty : T α) [] [] [] := by
  refine ⟨by simp, ?_, by simp, ⟨rfl, rfl⟩, ⟨rfl, rfl⟩⟩
  intro i; simp [T.empty]

theorem upd_self {β : Type} (f : Nat → β) (i : Nat) (x : β) : upd f i x i = x := by simp [upd]
theorem upd_ne {β : Type} (f : Nat → β) {i j : Nat} (x : β) (h : j ≠ i) : upd f i x j = f j := by simp [upd, h]

/-- Allocation: the smallest unused index. -/
theorem allocate_spec {t : T α} {w l} (R : Lk t w l []) (v : α) :
    ∃ t' n l', allocate t v = some (t', n) ∧ Lk t' w l' [n] ∧ n ≠ 0 ∧ n ∉ w ∧ (∀ m, 0 < m → m < n → m ∈ w) ∧
      t'.val = upd t.val n v ∧ (∀ i ∈ w, t'.head i = t.head i ∧ t'.tail i = t.tail i) := by
  unfold allocate T.rd
  rw [if_pos R.len, Option.bind_some, R.free.next]
  cases l with
  | nil =>
    simp only [hd, if_true]
    have hlt : ∀ x, x ∈ w → x ≠ t.len := fun x hx e => by have := R.w_lt hx; omega
    have hlen := R.len
    refine ⟨_, _, [], rfl, ⟨?_, ?_, by simp, ?_, ?_⟩, by omega, fun h => hlt _ h rfl, ?_, rfl, ?_⟩
    · have := R.nd
      simp only [List.append_nil] at this ⊢
      rw [show 0 :: (w ++ [t.len]) = (0 :: w) ++ [t.len] from rfl, List.nodup_append]
      refine ⟨this, by simp, ?_⟩
      intro a ha b hb
      simp only [List.mem_singleton] at hb
      subst hb
      rcases List.mem_cons.mp ha with rfl | ha
      · omega
      · exact hlt a ha
    · intro i
      have := R.range i
      simp only [T.push, List.append_nil, List.mem_append, List.mem_cons, List.not_mem_nil, or_false] at this ⊢
      by_cases e : i = t.len
      · subst e; simp
      · constructor
        · rintro (h | h | h)
          · omega
          · have := this.mp (Or.inr h); omega
          · exact absurd h e
        · intro h
          rcases this.mpr (by omega) with h | h
          · exact Or.inl h
          · exact Or.inr (Or.inl h)
    · refine R.main.congr ?_ ?_ <;>
      · intro i hi
        apply upd_ne
        rcases List.mem_cons.mp hi with rfl | hi
        · omega
        · exact hlt i hi
    · refine R.free.congr ?_ ?_ <;>
      · intro i hi
        apply upd_ne
        rcases List.mem_cons.mp hi with rfl | hi
        · omega
        · simp at hi
    · intro m h1 h2
      have := (R.range m).mpr h2
      simp only [List.append_nil, List.mem_cons] at this
      exact this.resolve_left (by omega)
    · intro i hi
      exact ⟨upd_ne _ _ (hlt i hi), upd_ne _ _ (hlt i hi)⟩
  | cons n r =>
    have hnl := R.l_lt (i := n) (by simp)
    have hn0 : n ≠ 0 := R.l0 (by simp)
    have hnr : n ∉ r := (List.nodup_cons.mp R.ndl).1
    obtain ⟨_, hh, S⟩ := R.free
    have hnx := S.next
    have hrl : hd r 0 < t.len := by
      rcases hd_mem (B := r) (y := 0) with h | h
      · rw [h]; exact R.len
      · exact R.l_lt (List.mem_cons_of_mem _ h)
    rw [show hd (n :: r) 0 = n from rfl]
    simp only [hn0, if_false, hnl, if_true, Option.bind_some, hh, hnx, T.setVal, T.setNext, T.setHead,
      T.setTail, T.setPrev, R.len, hrl]
    have hw : ∀ x, x ∈ w → x ≠ n := by rintro x hx rfl; exact R.wl hx (by simp)
    have hwr : ∀ x, x ∈ w → x ≠ hd r 0 := by
      intro x hx e
      rcases hd_mem (B := r) (y := 0) with h | h
      · exact R.w0 hx (e.trans h)
      · exact R.wl hx (e ▸ List.mem_cons_of_mem _ h)
    refine ⟨_, _, r, rfl, ?_⟩
    refine ⟨⟨?_, ?_, (List.pairwise_cons.mp R.sorted).2, ?_, ?_⟩, hn0, fun h => hw n h rfl, ?_, rfl, ?_⟩
    · simpa using R.nd
    · intro i
      have := R.range i
      simpa using this
    · refine R.main.congr ?_ ?_ <;>
      · intro i hi
        apply upd_ne
        rcases List.mem_cons.mp hi with rfl | hi
        · exact Ne.symm hn0
        · exact hw i hi
    · cases r with
      | nil => dsimp only [hd]; exact ⟨upd_self _ _ _, upd_self _ _ _⟩
      | cons a r =>
        dsimp only [hd]
        have nd := R.ndl
        simp only [List.nodup_cons] at nd
        refine ⟨upd_self _ _ _, upd_self _ _ _, S.2.2.congr ?_ ?_⟩
        · intro i hi
          exact upd_ne _ _ (R.l0 (List.mem_cons_of_mem _ hi))
        · intro i hi
          apply upd_ne
          rcases List.mem_cons.mp hi with rfl | hi
          · exact fun e => R.l0 (i := a) (by simp) e.symm
          · rintro rfl; exact nd.2.1 hi
    · intro m h1 h2
      have := (R.range m).mpr (by omega)
      simp only [List.append_nil, List.mem_append, List.mem_cons] at this
      rcases this with h | h | h | h
      · omega
      · exact h
      · omega
      · have := (List.pairwise_cons.mp R.sorted).1 m h
        omega
    · intro i hi
      exact ⟨upd_ne _ _ (hwr i hi), upd_ne _ _ (R.w0 hi)⟩

/-- Linking a detached node before a place. -/
theorem link_spec {t : T α} {A B l n} (R : Lk t (A ++ B) l [n]) :
    ∃ t', link t (hd B 0) n = some t' ∧ Lk t' (A ++ n :: B) l [] ∧ t'.val = t.val ∧ t'.head = upd t.head n 0 ∧
      t'.tail = upd t.tail n 0 := by
  obtain ⟨SA, SB⟩ := seg_split.mp R.main
  have hn : n ∈ [n] := by simp
  have hn0 := R.d0 hn
  have hnl := R.d_lt hn
  have hnw : n ∉ A ++ B := fun h => R.wd h hn
  have hnd := R.ndw
  have hw0 : 0 ∉ A ++ B := fun h => R.w0 h rfl
  have hp : hd B 0 < t.len := by
    rcases hd_mem (B := B) (y := 0) with h | h
    · rw [h]; exact R.len
    · exact R.w_lt (by simp [h])
  have hb : lst 0 A < t.len := by
    rcases List.mem_cons.mp (lst_mem 0 A) with h | h
    · rw [h]; exact R.len
    · exact R.w_lt (by simp [h])
  have hbn : lst 0 A ≠ n := by
    intro e
    rcases List.mem_cons.mp (lst_mem 0 A) with h | h
    · exact hn0 (e.symm.trans h)
    · exact hnw (by simp [← e, h])
  have hpn : hd B 0 ≠ n := by
    intro e
    rcases hd_mem (B := B) (y := 0) with h | h
    · exact hn0 (e.symm.trans h)
    · exact hnw (by simp [← e, h])
  have h0A : 0 ∉ A := fun h => hw0 (by simp [h])
  obtain ⟨ndA, ndB, disj⟩ := List.nodup_append.mp hnd
  simp only [link, T.rd, hp, if_true, Option.bind_some, SA.prev, T.setNext, T.setPrev, T.setHead, T.setTail, hb, hnl]
  refine ⟨_, rfl, ⟨?_, ?_, R.sorted, ?_, ?_⟩, rfl, rfl, rfl⟩
  · have := R.nd
    refine (List.Perm.nodup_iff ?_).mp this
    simp only [List.append_nil]
    refine List.Perm.cons _ (List.Perm.append_right _ ?_)
    rw [show A ++ n :: B = A ++ ([n] ++ B) from rfl, ← List.append_assoc, List.append_assoc, List.append_assoc]
    exact List.Perm.append_left _ List.perm_append_comm
  · intro i
    have := R.range i
    simp only [List.append_nil, List.mem_append, List.mem_cons, List.not_mem_nil, or_false] at this ⊢
    rw [← this]; tauto
  · rw [seg_mid]
    refine ⟨SA.retarget (List.nodup_cons.mpr ⟨h0A, ndA⟩) ?_ ?_ ?_ ?_, ?_⟩
    · intro i hi hne
      show upd (upd _ _ _) _ _ i = _
      rw [upd_ne, upd_ne _ _ hne]
      rintro rfl
      rcases List.mem_cons.mp hi with h | h
      · exact hn0 h
      · exact hnw (by simp [h])
    · show upd (upd _ _ _) _ _ _ = _
      rw [upd_ne _ _ hbn, upd_self]
    · intro i hi
      show upd (upd _ _ _) _ _ i = _
      rw [upd_ne, upd_ne]
      · rintro rfl; exact hnw (by simp [hi])
      · intro e
        rcases hd_mem (B := B) (y := 0) with h | h
        · exact h0A (by rw [← h, ← e]; exact hi)
        · exact disj i hi _ h e
    · show upd (upd _ _ _) _ _ n = _
      rw [upd_ne _ _ (Ne.symm hpn), upd_self]
    · cases B with
      | nil => dsimp only [hd]; exact ⟨upd_self _ _ _, upd_self _ _ _⟩
      | cons b B =>
        dsimp only [hd]
        refine ⟨upd_self _ _ _, upd_self _ _ _, Seg.congr SB ?_ ?_⟩
        · intro i hi
          show upd (upd _ _ _) _ _ i = _
          rw [upd_ne, upd_ne]
          · intro e
            rcases List.mem_cons.mp (lst_mem 0 A) with h | h
            · exact hw0 (by rw [← h, ← e]; simp only [List.mem_append]; exact Or.inr hi)
            · exact disj _ h i hi e.symm
          · rintro rfl; exact hnw (List.mem_append_right _ hi)
        · intro i hi
          have hib : i ≠ b := by
            rcases List.mem_cons.mp hi with rfl | hi
            · rintro rfl; exact hw0 (by simp)
            · rintro rfl; exact (List.nodup_cons.mp ndB).1 hi
          have hin : i ≠ n := by
            rcases List.mem_cons.mp hi with rfl | hi
            · exact Ne.symm hn0
            · rintro rfl; exact hnw (by simp [hi])
          show upd (upd _ _ _) _ _ i = _
          rw [upd_ne _ _ hib, upd_ne _ _ hin]
  · refine R.free.congr ?_ ?_ <;>
    · intro i hi
      apply upd_ne
      rintro rfl
      rcases List.mem_cons.mp hi with h | h
      · exact hn0 h
      · exact R.dl hn h

/-- Taking a node out. -/
theorem unlink_spec {t : T α} {A B l n} (R : Lk t (A ++ n :: B) l []) :
    ∃ t', unlink t n = some t' ∧ Lk t' (A ++ B) l [n] ∧ t'.val = t.val ∧ t'.head = upd t.head n 0 ∧
      t'.tail = upd t.tail n 0 := by
  obtain ⟨SA, SN⟩ := seg_mid.mp R.main
  have SB : Rest t.next t.prev B 0 := by
    cases B with
    | nil => trivial
    | cons b B => exact SN.2.2
  have hn : n ∈ A ++ n :: B := by simp
  have hn0 := R.w0 hn
  have hnl := R.w_lt hn
  obtain ⟨ndA, ndB, disj⟩ := List.nodup_append.mp R.ndw
  have hnA : n ∉ A := fun h => disj n h n (by simp) rfl
  have hnB : n ∉ B := (List.nodup_cons.mp ndB).1
  have h0A : 0 ∉ A := fun h => R.w0 (i := 0) (by simp [h]) rfl
  have h0B : 0 ∉ B := fun h => R.w0 (i := 0) (by simp [h]) rfl
  have hp : hd B 0 < t.len := by
    rcases hd_mem (B := B) (y := 0) with h | h
    · rw [h]; exact R.len
    · exact R.w_lt (by simp [h])
  have hb : lst 0 A < t.len := by
    rcases List.mem_cons.mp (lst_mem 0 A) with h | h
    · rw [h]; exact R.len
    · exact R.w_lt (by simp [h])
  have hbn : lst 0 A ≠ n := by
    intro e
    rcases List.mem_cons.mp (lst_mem 0 A) with h | h
    · exact hn0 (e.symm.trans h)
    · exact hnA (by simp [← e, h])
  have hpn : hd B 0 ≠ n := by
    intro e
    rcases hd_mem (B := B) (y := 0) with h | h
    · exact hn0 (e.symm.trans h)
    · exact hnB (by simp [← e, h])
  simp only [unlink, T.rd, hp, if_true, Option.bind_some, SA.prev, SN.next, T.setNext, T.setPrev, T.setHead, T.setTail,
    hb, hnl]
  refine ⟨_, rfl, ⟨?_, ?_, R.sorted, ?_, ?_⟩, rfl, rfl, rfl⟩
  · have := R.nd
    refine (List.Perm.nodup_iff ?_).mpr this
    simp only [List.append_nil]
    refine List.Perm.cons _ (List.Perm.append_right _ ?_)
    rw [show A ++ n :: B = A ++ ([n] ++ B) from rfl, List.append_assoc]
    exact List.Perm.append_left _ List.perm_append_comm
  · intro i
    have := R.range i
    simp only [List.append_nil, List.mem_append, List.mem_cons, List.not_mem_nil, or_false] at this ⊢
    rw [← this]; tauto
  · rw [seg_split]
    refine ⟨SA.retarget (List.nodup_cons.mpr ⟨h0A, ndA⟩) ?_ ?_ ?_ ?_, SB.congr ?_ ?_ ?_⟩
    · intro i hi hne
      show upd (upd _ _ _) _ _ i = _
      rw [upd_ne, upd_ne _ _ hne]
      rintro rfl
      rcases List.mem_cons.mp hi with h | h
      · exact hn0 h
      · exact hnA h
    · show upd (upd _ _ _) _ _ _ = _
      rw [upd_ne _ _ hbn, upd_self]
    · intro i hi
      show upd (upd _ _ _) _ _ i = _
      rw [upd_ne, upd_ne]
      · intro e
        rcases hd_mem (B := B) (y := 0) with h | h
        · exact h0A (by rw [← h, ← e]; exact hi)
        · exact disj i hi _ (List.mem_cons_of_mem _ h) e
      · rintro rfl; exact hnA hi
    · show upd (upd _ _ _) _ _ _ = _
      rw [upd_ne _ _ hpn, upd_self]
    · intro i hi
      show upd (upd _ _ _) _ _ i = _
      rw [upd_ne, upd_ne]
      · intro e
        rcases List.mem_cons.mp (lst_mem 0 A) with h | h
        · exact h0B (by rw [← h, ← e]; exact hi)
        · exact disj _ h i (List.mem_cons_of_mem _ hi) e.symm
      · rintro rfl; exact hnB hi
    · intro i hi
      show upd (upd _ _ _) _ _ i = _
      have hiB := List.mem_of_mem_tail hi
      rw [upd_ne, upd_ne]
      · rintro rfl
        cases B with
        | nil => simp at hi
        | cons b B => exact (List.nodup_cons.mp (List.nodup_cons.mp ndB).2).1 hi
      · rintro rfl; exact hnB hiB
    · intro hB
      show upd (upd _ _ _) _ _ 0 = _
      rw [upd_ne _ _ (Ne.symm hn0), upd_ne]
      cases B with
      | nil => exact absurd rfl hB
      | cons b B => rintro e; exact h0B (by rw [e]; simp [hd])
  · refine R.free.congr ?_ ?_ <;>
    · intro i hi
      apply upd_ne
      rintro rfl
      rcases List.mem_cons.mp hi with h | h
      · exact hn0 h
      · exact R.wl hn h

theorem sorted_split {i : Nat} : ∀ (l : List Nat), l.Pairwise (· < ·) → i ∉ l →
    ∃ A B, l = A ++ B ∧ (∀ x ∈ A, x < i) ∧ ∀ x ∈ B, i < x := by
  intro l
  induction l with
  | nil => intro _ _; exact ⟨[], [], rfl, by simp, by simp⟩
  | cons a l ih =>
    intro h hi
    obtain ⟨h1, h2⟩ := List.pairwise_cons.mp h
    simp only [List.mem_cons, not_or] at hi
    by_cases ha : a < i
    · obtain ⟨A, B, e, hA, hB⟩ := ih h2 hi.2
      refine ⟨a :: A, B, by simp [e], ?_, hB⟩
      intro x hx
      rcases List.mem_cons.mp hx with rfl | hx
      · exact ha
      · exact hA x hx
    · refine ⟨[], a :: l, rfl, by simp, ?_⟩
      intro x hx
      rcases List.mem_cons.mp hx with rfl | hx
      · omega
      · have := h1 x hx; omega

theorem freeWalk_spec {t : T α} {i : Nat} : ∀ (A : List Nat) (x : Nat) (B : List Nat) (fuel : Nat),
    (∀ a ∈ A, a < i ∧ a ≠ 0 ∧ a < t.len) → (∀ b ∈ B, i < b) → A.length ≤ fuel → Seg t.tail t.head x A (hd B 0) →
    freeWalk t i fuel x (hd (A ++ B) 0) = some (lst x A) := by
  intro A
  induction A with
  | nil =>
    intro x B fuel _ hB _ _
    rw [freeWalk.eq_def]
    dsimp only
    rw [if_neg]
    · rfl
    · rintro ⟨h1, h2⟩
      cases B with
      | nil => exact h1 rfl
      | cons b B => have := hB b (by simp); simp [hd] at h2; omega
  | cons a A ih =>
    intro x B fuel hA hB hf S
    cases fuel with
    | zero => simp at hf
    | succ fuel =>
      obtain ⟨h1, h2, h3⟩ := hA a (by simp)
      obtain ⟨_, _, S⟩ := S
      have hn : t.tail a = hd (A ++ B) 0 := by
        rw [S.next]
        cases A <;> rfl
      simp only [List.cons_append, hd]
      rw [freeWalk, if_pos ⟨h2, h1⟩, T.rd, if_pos h3, Option.bind_some, hn]
      exact ih a B fuel (fun b hb => hA b (by simp [hb])) hB (by simpa using hf) S

/-- Freeing a detached node. -/
theorem free_spec {t : T α} {w l n} (R : Lk t w l [n]) :
    ∃ t' l', Verif.Model.TagTree.free t n = some t' ∧ Lk t' w l' [] ∧ t'.val = t.val ∧ t'.len = t.len ∧
      ∀ i ∈ w, t'.head i = t.head i ∧ t'.tail i = t.tail i := by
  have hn : n ∈ [n] := by simp
  have hn0 := R.d0 hn
  have hnl := R.d_lt hn
  obtain ⟨A, B, e, hA, hB⟩ := sorted_split l R.sorted (R.dl hn)
  subst e
  obtain ⟨SA, SB⟩ := seg_split.mp R.free
  have hlen : A.length ≤ t.len := by
    have h1 : A.Nodup := (List.nodup_append.mp R.ndl).1
    have h2 : ∀ a ∈ A, a ∈ List.range t.len := fun a ha => List.mem_range.mpr (R.l_lt (by simp [ha]))
    simpa using (List.subperm_of_subset h1 h2).length_le
  have hw := freeWalk_spec (t := t) (i := n) A 0 B t.len
    (fun a ha => ⟨hA a ha, R.l0 (by simp [ha]), R.l_lt (by simp [ha])⟩) hB hlen SA
  have hp : hd B 0 < t.len := by
    rcases hd_mem (B := B) (y := 0) with h | h
    · rw [h]; exact R.len
    · exact R.l_lt (by simp [h])
  have hb : lst 0 A < t.len := by
    rcases List.mem_cons.mp (lst_mem 0 A) with h | h
    · rw [h]; exact R.len
    · exact R.l_lt (by simp [h])
  have h0A : 0 ∉ A := fun h => R.l0 (i := 0) (by simp [h]) rfl
  have h0B : 0 ∉ B := fun h => R.l0 (i := 0) (by simp [h]) rfl
  obtain ⟨ndA, ndB, disj⟩ := List.nodup_append.mp R.ndl
  have hnA : n ∉ A := fun h => by have := hA n h; omega
  have hnB : n ∉ B := fun h => by have := hB n h; omega
  have hbn : lst 0 A ≠ n := by
    intro e
    rcases List.mem_cons.mp (lst_mem 0 A) with h | h
    · exact hn0 (e.symm.trans h)
    · exact hnA (by simp [← e, h])
  have hpn : hd B 0 ≠ n := by
    intro e
    rcases hd_mem (B := B) (y := 0) with h | h
    · exact hn0 (e.symm.trans h)
    · exact hnB (by simp [← e, h])
  have htl : t.tail (lst 0 A) = hd B 0 := by
    have := R.free
    cases hA' : A using List.reverseRecOn with
    | nil => subst hA'; exact SA.1
    | append_singleton A' a =>
      subst hA'
      rw [lst_append]
      exact (seg_mid.mp SA).2.1
  rw [Verif.Model.TagTree.free, if_pos hnl, T.rd, if_pos R.len, Option.bind_some, R.free.next, hw, Option.bind_some]
  simp only [T.rd, hb, htl, hp, if_true, Option.bind_some, T.setNext, T.setPrev, T.setHead, T.setTail, hnl]
  refine ⟨_, A ++ n :: B, rfl, ⟨?_, ?_, ?_, ?_, ?_⟩, rfl, rfl, ?_⟩
  · have := R.nd
    refine (List.Perm.nodup_iff ?_).mp this
    simp only [List.append_nil]
    refine List.Perm.cons _ ?_
    rw [List.append_assoc]
    refine List.Perm.append_left _ ?_
    rw [List.singleton_append]
    exact List.perm_middle.symm
  · intro i
    have := R.range i
    simp only [List.append_nil, List.mem_append, List.mem_cons, List.not_mem_nil, or_false] at this ⊢
    rw [← this]; tauto
  · have := R.sorted
    simp only [List.pairwise_append, List.pairwise_cons, List.mem_cons] at this ⊢
    refine ⟨this.1, ⟨hB, this.2.1⟩, ?_⟩
    rintro a ha b (rfl | hb)
    · exact hA a ha
    · exact this.2.2 a ha b hb
  · refine R.main.congr ?_ ?_ <;>
    · intro i hi
      apply upd_ne
      rintro rfl
      rcases List.mem_cons.mp hi with h | h
      · exact hn0 h
      · exact R.wd h hn
  · rw [seg_mid]
    refine ⟨SA.retarget (List.nodup_cons.mpr ⟨h0A, ndA⟩) ?_ ?_ ?_ ?_, ?_⟩
    · intro i hi hne
      show upd (upd _ _ _) _ _ i = _
      rw [upd_ne, upd_ne _ _ hne]
      rintro rfl
      rcases List.mem_cons.mp hi with h | h
      · exact hn0 h
      · exact hnA h
    · show upd (upd _ _ _) _ _ _ = _
      rw [upd_ne _ _ hbn, upd_self]
    · intro i hi
      show upd (upd _ _ _) _ _ i = _
      rw [upd_ne, upd_ne]
      · rintro rfl; exact hnA hi
      · intro e
        rcases hd_mem (B := B) (y := 0) with h | h
        · exact h0A (by rw [← h, ← e]; exact hi)
        · exact disj i hi _ h e
    · show upd (upd _ _ _) _ _ n = _
      rw [upd_ne _ _ (Ne.symm hpn), upd_self]
    · cases B with
      | nil => dsimp only [hd]; exact ⟨upd_self _ _ _, upd_self _ _ _⟩
      | cons b B =>
        dsimp only [hd]
        refine ⟨upd_self _ _ _, upd_self _ _ _, Seg.congr SB ?_ ?_⟩
        · intro i hi
          show upd (upd _ _ _) _ _ i = _
          rw [upd_ne, upd_ne]
          · intro e
            rcases List.mem_cons.mp (lst_mem 0 A) with h | h
            · exact h0B (by rw [← h, ← e]; exact hi)
            · exact disj _ h i hi e.symm
          · rintro rfl; exact hnB hi
        · intro i hi
          have hib : i ≠ b := by
            rcases List.mem_cons.mp hi with rfl | hi
            · rintro rfl; exact h0B (by simp)
            · rintro rfl; exact (List.nodup_cons.mp ndB).1 hi
          have hin : i ≠ n := by
            rcases List.mem_cons.mp hi with rfl | hi
            · exact Ne.symm hn0
            · rintro rfl; exact hnB (by simp [hi])
          show upd (upd _ _ _) _ _ i = _
          rw [upd_ne _ _ hib, upd_ne _ _ hin]
  · intro i hi
    have hin : i ≠ n := by rintro rfl; exact R.wd hi hn
    have h1 : i ≠ hd B 0 := by
      intro e
      rcases hd_mem (B := B) (y := 0) with h | h
      · exact R.w0 hi (e.trans h)
      · exact R.wl hi (by rw [e]; simp [h])
    have h2 : i ≠ lst 0 A := by
      intro e
      rcases List.mem_cons.mp (lst_mem 0 A) with h | h
      · exact R.w0 hi (e.trans h)
      · exact R.wl hi (by rw [e]; simp [h])
    constructor
    · show upd (upd _ _ _) _ _ i = _
      rw [upd_ne _ _ h1, upd_ne _ _ hin]
    · show upd (upd _ _ _) _ _ i = _
      rw [upd_ne _ _ hin, upd_ne _ _ h2]

end Verif.Proof.TagTree
