import Verif.Proof.TagNav
import Verif.Proof.TreeRun

/-! Moving subtrees of the tag tree. -/
namespace Verif.Proof.TagTree
open Verif.Spec Verif.Spec.Forest Verif.Spec.Tags Verif.Model.TagTree
open Verif.Proof.Tree (children_sub isNode_mem)
variable {α : Type}

/-- Two neighbouring blocks change places. -/
theorem swap_seg {nx pv nx' pv' : Nat → Nat} {P X Y Q : List Nat} {x y : Nat}
    (nd : (0 :: (P ++ x :: X ++ y :: Y ++ Q)).Nodup) (S : Seg nx pv 0 (P ++ x :: X ++ y :: Y ++ Q) 0)
    (n1 : nx' (lst 0 P) = y) (n2 : nx' (lst y Y) = x) (n3 : nx' (lst x X) = hd Q 0)
    (n4 : ∀ i, i ≠ lst 0 P → i ≠ lst y Y → i ≠ lst x X → nx' i = nx i)
    (p1 : pv' y = lst 0 P) (p2 : pv' x = lst y Y) (p3 : pv' (hd Q 0) = lst x X)
    (p4 : ∀ i, i ≠ y → i ≠ x → i ≠ hd Q 0 → pv' i = pv i) :
    Seg nx' pv' 0 (P ++ y :: Y ++ x :: X ++ Q) 0 := by
  have e1 : P ++ x :: X ++ y :: Y ++ Q = P ++ (x :: (X ++ (y :: (Y ++ Q)))) := by simp
  have e2 : P ++ y :: Y ++ x :: X ++ Q = P ++ (y :: (Y ++ (x :: (X ++ Q)))) := by simp
  rw [e1] at S nd
  rw [e2]
  obtain ⟨S1, S⟩ := seg_mid.mp S
  obtain ⟨S2, S⟩ := seg_mid.mp S
  obtain ⟨S3, S4⟩ := seg_split.mp S
  simp only [List.nodup_cons, List.nodup_append, List.mem_append, List.mem_cons, not_or] at nd
  obtain ⟨⟨z1, z2, z3, z4, z5, z6⟩, ndP, ⟨⟨a1, a2, a3, a4⟩, ndX, ⟨⟨b1, b2⟩, ndY, ndQ, dYQ⟩, dX⟩, dP⟩ := nd
  have hP : lst 0 P = 0 ∨ lst 0 P ∈ P := List.mem_cons.mp (lst_mem 0 P)
  have hX : lst x X = x ∨ lst x X ∈ X := List.mem_cons.mp (lst_mem x X)
  have hY : lst y Y = y ∨ lst y Y ∈ Y := List.mem_cons.mp (lst_mem y Y)
  have hQ : hd Q 0 = 0 ∨ hd Q 0 ∈ Q := hd_mem
  rw [seg_mid, seg_mid, seg_split]
  refine ⟨S1.retarget ?_ ?_ n1 ?_ p1, S3.retarget ?_ ?_ n2 ?_ p2, S2.retarget ?_ ?_ n3 ?_ p3, S4.congr ?_ ?_ ?_⟩
  · exact List.nodup_cons.mpr ⟨z1, ndP⟩
  · intro i hi hne
    refine n4 i hne ?_ ?_
    · rintro rfl
      rcases List.mem_cons.mp hi with h | h
      · rcases hY with h' | h'
        · exact z4 (h.symm.trans h')
        · exact z5 (h ▸ h')
      · rcases hY with h' | h'
        · exact dP _ h _ (Or.inr (Or.inr (Or.inl h'))) rfl
        · exact dP _ h _ (Or.inr (Or.inr (Or.inr (Or.inl h')))) rfl
    · rintro rfl
      rcases List.mem_cons.mp hi with h | h
      · rcases hX with h' | h'
        · exact z2 (h.symm.trans h')
        · exact z3 (h ▸ h')
      · rcases hX with h' | h'
        · exact dP _ h _ (Or.inl h') rfl
        · exact dP _ h _ (Or.inr (Or.inl h')) rfl
  · intro i hi
    refine p4 i ?_ ?_ ?_
    · rintro rfl; exact dP _ hi _ (Or.inr (Or.inr (Or.inl rfl))) rfl
    · rintro rfl; exact dP _ hi _ (Or.inl rfl) rfl
    · rintro rfl
      rcases hQ with h' | h'
      · exact z1 (h' ▸ hi)
      · exact dP _ hi _ (Or.inr (Or.inr (Or.inr (Or.inr h')))) rfl
  · exact List.nodup_cons.mpr ⟨b1, ndY⟩
  · intro i hi hne
    have hi' : i = y ∨ i ∈ Y := List.mem_cons.mp hi
    refine n4 i ?_ hne ?_
    · rintro rfl
      rcases hP with h | h
      · rw [h] at hi'
        rcases hi' with h' | h'
        · exact z4 h'
        · exact z5 h'
      · rcases hi' with h' | h'
        · exact dP _ h _ (Or.inr (Or.inr (Or.inl h'))) rfl
        · exact dP _ h _ (Or.inr (Or.inr (Or.inr (Or.inl h')))) rfl
    · rintro rfl
      rcases hX with h | h
      · rw [h] at hi'
        rcases hi' with h' | h'
        · exact a2 h'
        · exact a3 h'
      · rcases hi' with h' | h'
        · exact dX _ h _ (Or.inl h') rfl
        · exact dX _ h _ (Or.inr (Or.inl h')) rfl
  · intro i hi
    refine p4 i ?_ ?_ ?_
    · rintro rfl; exact b1 hi
    · rintro rfl; exact a3 hi
    · rintro rfl
      rcases hQ with h' | h'
      · exact z5 (h' ▸ hi)
      · exact dYQ _ hi _ h' rfl
  · exact List.nodup_cons.mpr ⟨a1, ndX⟩
  · intro i hi hne
    have hi' : i = x ∨ i ∈ X := List.mem_cons.mp hi
    refine n4 i ?_ ?_ hne
    · rintro rfl
      rcases hP with h | h
      · rw [h] at hi'
        rcases hi' with h' | h'
        · exact z2 h'
        · exact z3 h'
      · rcases hi' with h' | h'
        · exact dP _ h _ (Or.inl h') rfl
        · exact dP _ h _ (Or.inr (Or.inl h')) rfl
    · rintro rfl
      rcases hY with h | h
      · rw [h] at hi'
        rcases hi' with h' | h'
        · exact a2 h'.symm
        · exact dX _ h' _ (Or.inl rfl) rfl
      · rcases hi' with h' | h'
        · exact a3 (h' ▸ h)
        · exact dX _ h' _ (Or.inr (Or.inl h)) rfl
  · intro i hi
    refine p4 i ?_ ?_ ?_
    · rintro rfl; exact dX _ hi _ (Or.inl rfl) rfl
    · rintro rfl; exact a1 hi
    · rintro rfl
      rcases hQ with h' | h'
      · exact z3 (h' ▸ hi)
      · exact dX _ hi _ (Or.inr (Or.inr h')) rfl
  · intro i hi
    refine n4 i ?_ ?_ ?_
    · rintro rfl
      rcases hP with h | h
      · exact z6 (h ▸ hi)
      · exact dP _ h _ (Or.inr (Or.inr (Or.inr (Or.inr hi)))) rfl
    · rintro rfl
      rcases hY with h | h
      · exact b2 (h ▸ hi)
      · exact dYQ _ h _ hi rfl
    · rintro rfl
      rcases hX with h | h
      · exact a4 (h ▸ hi)
      · exact dX _ h _ (Or.inr (Or.inr hi)) rfl
  · intro i hi
    have hi' := List.mem_of_mem_tail hi
    refine p4 i ?_ ?_ ?_
    · rintro rfl; exact b2 hi'
    · rintro rfl; exact a4 hi'
    · rintro rfl
      cases Q with
      | nil => simp at hi
      | cons q Q => exact (List.nodup_cons.mp ndQ).1 hi
  · intro hne
    refine p4 0 z4 z2 ?_
    intro h
    cases Q with
    | nil => exact hne rfl
    | cons q Q => exact z6 (by rw [h]; simp [hd])

theorem seg_last {nx pv : Nat → Nat} : ∀ {u : List Nat} {a b : Nat}, Seg nx pv a u b → nx (lst a u) = b := by
  intro u
  induction u with
  | nil => intro a b s; exact s.1
  | cons d u ih => intro a b s; exact ih s.2.2

theorem upd3 {f : Nat → Nat} {a b c x y z : Nat} (h1 : a ≠ b) (h2 : a ≠ c) (h3 : b ≠ c) :
    upd (upd (upd f a x) b y) c z a = x ∧ upd (upd (upd f a x) b y) c z b = y ∧ upd (upd (upd f a x) b y) c z c = z ∧
      ∀ i, i ≠ a → i ≠ b → i ≠ c → upd (upd (upd f a x) b y) c z i = f i := by
  refine ⟨?_, ?_, upd_self _ _ _, ?_⟩
  · rw [upd_ne _ _ h2, upd_ne _ _ h1, upd_self]
  · rw [upd_ne _ _ h3, upd_self]
  · intro i h1 h2 h3
    rw [upd_ne _ _ h3, upd_ne _ _ h2, upd_ne _ _ h1]

/-- What `move` writes, if nothing is out of range. -/
theorem move_eq {t : T α} {pos x e pb sb sa : Nat} (h1 : t.prev pos = pb) (h2 : t.prev x = sb) (h3 : lastTag t x = some e)
    (h4 : t.next e = sa) (b1 : pos < t.len) (b2 : x < t.len) (b3 : e < t.len) (b4 : pb < t.len) (b5 : sb < t.len)
    (b6 : sa < t.len) :
    Verif.Model.TagTree.move t pos x = some ({ t with
      next := upd (upd (upd t.next pb x) e pos) sb sa, prev := upd (upd (upd t.prev x pb) pos e) sa sb }, x) := by
  simp only [Verif.Model.TagTree.move, T.rd, b1, b2, if_true, Option.bind_some, h1, h2, h3, b3, h4, T.setNext, T.setPrev,
    b4, b5, b6]

/-- A subtree moves to another place. -/
theorem move_lk {t : T α} {A C B A' B' l d : List Nat} {x : Nat} (L : Lk t (A ++ x :: C ++ B) l d)
    (hl : lastTag t x = some (lst x C)) (hc : A ++ B = A' ++ B') (hne : hd B' 0 ≠ hd B 0) :
    ∃ t', Verif.Model.TagTree.move t (hd B' 0) x = some (t', x) ∧ Lk t' (A' ++ x :: C ++ B') l d ∧ t'.val = t.val ∧
      t'.head = t.head ∧ t'.tail = t.tail := by
  have hlt : ∀ {i}, i ∈ 0 :: (A ++ x :: C ++ B) → i < t.len := by
    intro i hi
    rcases List.mem_cons.mp hi with rfl | hi
    · exact L.len
    · exact L.w_lt hi
  have nd0 : (0 :: (A ++ x :: C ++ B)).Nodup := List.nodup_cons.mpr ⟨fun h => L.w0 h rfl, L.ndw⟩
  have hlst : ∀ a u, lst a u ∈ a :: u := lst_mem
  have fin : ∀ {nx' pv' : Nat → Nat} {w' : List Nat}, Seg nx' pv' 0 w' 0 → (A ++ x :: C ++ B).Perm w' →
      Lk { t with next := nx', prev := pv' } w' l d := by
    intro nx' pv' w' S hp
    refine ⟨?_, ?_, L.sorted, S, L.free⟩
    · refine (List.Perm.nodup_iff ?_).mp L.nd
      exact List.Perm.cons _ (List.Perm.append_right _ (List.Perm.append_right _ hp))
    · intro i
      rw [← L.range i]
      simp only [List.mem_cons, List.mem_append, ← hp.mem_iff]
  rcases List.append_eq_append_iff.mp hc with ⟨M, e1, e2⟩ | ⟨M, e1, e2⟩
  · subst e1 e2
    cases M with
    | nil => exact absurd rfl hne
    | cons m M =>
      have S := L.main
      rw [← List.append_assoc] at S nd0
      have S' : Seg t.next t.prev 0 (A ++ (x :: (C ++ (m :: (M ++ B'))))) 0 := by simpa using S
      obtain ⟨S1, S'⟩ := seg_mid.mp S'
      obtain ⟨S2, S'⟩ := seg_mid.mp S'
      obtain ⟨S3, S4⟩ := seg_split.mp S'
      have nd1 := nd0
      simp only [List.nodup_cons, List.nodup_append, List.append_assoc, List.cons_append, List.mem_append, List.mem_cons,
        not_or] at nd1
      obtain ⟨⟨z1, z2, z3, z4, z5, z6⟩, ndP, ⟨⟨a1, a2, a3, a4⟩, ndX, ⟨⟨b1, b2⟩, ndY, ndQ, dYQ⟩, dX⟩, dP⟩ := nd1
      have hP : lst 0 A = 0 ∨ lst 0 A ∈ A := List.mem_cons.mp (hlst 0 A)
      have hX : lst x C = x ∨ lst x C ∈ C := List.mem_cons.mp (hlst x C)
      have hY : lst m M = m ∨ lst m M ∈ M := List.mem_cons.mp (hlst m M)
      have hQ : hd B' 0 = 0 ∨ hd B' 0 ∈ B' := hd_mem
      have n1 : lst m M ≠ lst x C := by
        intro e
        rcases hX with h | h
        · rcases hY with h' | h'
          · exact a2 (by rw [← h, ← h', e])
          · exact a3 (by rw [← h, ← e]; exact h')
        · rcases hY with h' | h'
          · exact dX _ h _ (Or.inl rfl) (e.symm.trans h')
          · exact dX _ h _ (Or.inr (Or.inl h')) e.symm
      have n2 : lst m M ≠ lst 0 A := by
        intro e
        rcases hP with h | h
        · rcases hY with h' | h'
          · exact z4 (by rw [← h, ← h', e])
          · exact z5 (by rw [← h, ← e]; exact h')
        · rcases hY with h' | h'
          · exact dP _ h _ (Or.inr (Or.inr (Or.inl rfl))) (e.symm.trans h')
          · exact dP _ h _ (Or.inr (Or.inr (Or.inr (Or.inl h')))) e.symm
      have n3 : lst x C ≠ lst 0 A := by
        intro e
        rcases hP with h | h
        · rcases hX with h' | h'
          · exact z2 (by rw [← h, ← h', e])
          · exact z3 (by rw [← h, ← e]; exact h')
        · rcases hX with h' | h'
          · exact dP _ h _ (Or.inl rfl) (e.symm.trans h')
          · exact dP _ h _ (Or.inr (Or.inl h')) e.symm
      have q1 : x ≠ hd B' 0 := by
        intro e
        rcases hQ with h | h
        · exact z2 (e.trans h).symm
        · exact a4 (e ▸ h)
      have q2 : hd B' 0 ≠ m := by
        intro e
        rcases hQ with h | h
        · exact z4 (by rw [← e, h])
        · exact b2 (e ▸ h)
      obtain ⟨u1, u2, u3, u4⟩ := upd3 (f := t.next) (x := x) (y := hd B' 0) (z := m) n1 n2 n3
      obtain ⟨v1, v2, v3, v4⟩ := upd3 (f := t.prev) (x := lst m M) (y := lst x C) (z := lst 0 A) q1 a2 q2
      have hbound : lst m M < t.len ∧ lst x C < t.len ∧ lst 0 A < t.len ∧ hd B' 0 < t.len := by
        refine ⟨hlt ?_, hlt ?_, hlt ?_, hlt ?_⟩
        · rcases hY with h | h <;> simp [h]
        · rcases hX with h | h <;> simp [h]
        · rcases hP with h | h <;> simp [h]
        · rcases hQ with h | h <;> simp [h]
      refine ⟨_, move_eq S3.prev S1.prev hl (seg_last S2) hbound.2.2.2 (hlt (by simp)) hbound.2.1 hbound.1 hbound.2.2.1
        (hlt (by simp)), fin ?_ ?_, rfl, rfl, rfl⟩
      · have := swap_seg (P := A) (X := C) (Y := M) (Q := B') (x := x) (y := m) (by simpa using nd0) (by simpa using S)
          u3 u1 u2 (fun i h1 h2 h3 => u4 i h2 h3 h1) v3 v1 v2 (fun i h1 h2 h3 => v4 i h2 h3 h1)
        simpa using this
      · have e1 : A ++ x :: C ++ (m :: M ++ B') = A ++ ((x :: C ++ m :: M) ++ B') := by simp
        have e2 : A ++ m :: M ++ x :: C ++ B' = A ++ ((m :: M ++ x :: C) ++ B') := by simp
        rw [e1, e2]
        refine List.Perm.append_left _ ?_
        exact List.Perm.append_right _ List.perm_append_comm
  · subst e1 e2
    cases M with
    | nil => exact absurd rfl hne
    | cons m M =>
      have S := L.main
      have S' : Seg t.next t.prev 0 (A' ++ (m :: (M ++ (x :: (C ++ B))))) 0 := by simpa using S
      obtain ⟨S1, S'⟩ := seg_mid.mp S'
      obtain ⟨S2, S'⟩ := seg_mid.mp S'
      obtain ⟨S3, S4⟩ := seg_split.mp S'
      have nd1 := nd0
      simp only [List.nodup_cons, List.nodup_append, List.append_assoc, List.cons_append, List.mem_append, List.mem_cons,
        not_or] at nd1
      obtain ⟨⟨z1, z2, z3, z4, z5, z6⟩, ndP, ⟨⟨a1, a2, a3, a4⟩, ndX, ⟨⟨b1, b2⟩, ndY, ndQ, dYQ⟩, dX⟩, dP⟩ := nd1
      have hP : lst 0 A' = 0 ∨ lst 0 A' ∈ A' := List.mem_cons.mp (hlst 0 A')
      have hX : lst m M = m ∨ lst m M ∈ M := List.mem_cons.mp (hlst m M)
      have hY : lst x C = x ∨ lst x C ∈ C := List.mem_cons.mp (hlst x C)
      have hQ : hd B 0 = 0 ∨ hd B 0 ∈ B := hd_mem
      have n1 : lst 0 A' ≠ lst x C := by
        intro e
        rcases hP with h | h
        · rcases hY with h' | h'
          · exact z4 (by rw [← h, ← h', e])
          · exact z5 (by rw [← h, e]; exact h')
        · rcases hY with h' | h'
          · exact dP _ h _ (Or.inr (Or.inr (Or.inl rfl))) (e.trans h')
          · exact dP _ h _ (Or.inr (Or.inr (Or.inr (Or.inl h')))) e
      have n2 : lst 0 A' ≠ lst m M := by
        intro e
        rcases hP with h | h
        · rcases hX with h' | h'
          · exact z2 (by rw [← h, ← h', e])
          · exact z3 (by rw [← h, e]; exact h')
        · rcases hX with h' | h'
          · exact dP _ h _ (Or.inl rfl) (e.trans h')
          · exact dP _ h _ (Or.inr (Or.inl h')) e
      have n3 : lst x C ≠ lst m M := by
        intro e
        rcases hX with h | h
        · rcases hY with h' | h'
          · exact a2 (by rw [← h, ← h', e])
          · exact a3 (by rw [← h, ← e]; exact h')
        · rcases hY with h' | h'
          · exact dX _ h _ (Or.inl rfl) (e.symm.trans h')
          · exact dX _ h _ (Or.inr (Or.inl h')) e.symm
      have q1 : x ≠ m := Ne.symm a2
      have q2 : x ≠ hd B 0 := by
        intro e
        rcases hQ with h | h
        · exact z4 (by rw [e, h])
        · exact b2 (e ▸ h)
      have q3 : m ≠ hd B 0 := hne
      obtain ⟨u1, u2, u3, u4⟩ := upd3 (f := t.next) (x := x) (y := m) (z := hd B 0) n1 n2 n3
      obtain ⟨v1, v2, v3, v4⟩ := upd3 (f := t.prev) (x := lst 0 A') (y := lst x C) (z := lst m M) q1 q2 q3
      have hbound : lst m M < t.len ∧ lst x C < t.len ∧ lst 0 A' < t.len ∧ hd B 0 < t.len := by
        refine ⟨hlt ?_, hlt ?_, hlt ?_, hlt ?_⟩
        · rcases hX with h | h <;> simp [h]
        · rcases hY with h | h <;> simp [h]
        · rcases hP with h | h <;> simp [h]
        · rcases hQ with h | h <;> simp [h]
      refine ⟨_, move_eq S1.prev S2.prev hl (seg_last S3) (hlt (by simp [hd])) (hlt (by simp)) hbound.2.1 hbound.2.2.1
        hbound.1 hbound.2.2.2, fin ?_ ?_, rfl, rfl, rfl⟩
      · have := swap_seg (P := A') (X := M) (Y := C) (Q := B) (x := m) (y := x) (by simpa using nd0) (by simpa using S)
          u1 u2 u3 u4 v1 v2 v3 v4
        rw [List.append_assoc (_ ++ _)] at this
        exact this
      · have e1 : A' ++ m :: M ++ x :: C ++ B = A' ++ ((m :: M ++ x :: C) ++ B) := by simp
        have e2 : A' ++ x :: C ++ (m :: M ++ B) = A' ++ ((x :: C ++ m :: M) ++ B) := by simp
        rw [e1, e2]
        refine List.Perm.append_left _ ?_
        exact List.Perm.append_right _ List.perm_append_comm

/-- A subtree moved to where it is gets lost. -/
theorem move_drop {t : T α} {A C B l : List Nat} {x : Nat} (L : Lk t (A ++ x :: C ++ B) l [])
    (hl : lastTag t x = some (lst x C)) {pos : Nat} (hp : pos = x ∨ pos = hd B 0) :
    ∃ t', Verif.Model.TagTree.move t pos x = some (t', x) ∧ Lk t' (A ++ B) l (x :: C) ∧ t'.val = t.val ∧
      t'.head = t.head ∧ t'.tail = t.tail := by
  have hlt : ∀ {i}, i ∈ 0 :: (A ++ x :: C ++ B) → i < t.len := by
    intro i hi
    rcases List.mem_cons.mp hi with rfl | hi
    · exact L.len
    · exact L.w_lt hi
  have nd0 : (0 :: (A ++ x :: C ++ B)).Nodup := List.nodup_cons.mpr ⟨fun h => L.w0 h rfl, L.ndw⟩
  have fin : ∀ {nx' pv' : Nat → Nat}, Seg nx' pv' 0 (A ++ B) 0 →
      Lk { t with next := nx', prev := pv' } (A ++ B) l (x :: C) := by
    intro nx' pv' S
    have hp : (A ++ x :: C ++ B).Perm (A ++ B ++ x :: C) := by
      rw [List.append_assoc, List.append_assoc]
      exact List.Perm.append_left _ List.perm_append_comm
    refine ⟨?_, ?_, L.sorted, S, L.free⟩
    · refine (List.Perm.nodup_iff ?_).mp L.nd
      rw [List.append_nil]
      exact List.Perm.cons _ (List.Perm.append_right _ hp)
    · intro i
      rw [← L.range i, List.append_nil, List.mem_cons, List.mem_cons, List.mem_append, List.mem_append (s := A ++ x :: C ++ B),
        hp.mem_iff]
  have S' : Seg t.next t.prev 0 (A ++ (x :: (C ++ B))) 0 := by simpa using L.main
  obtain ⟨S1, S'⟩ := seg_mid.mp S'
  obtain ⟨S2, S3⟩ := seg_split.mp S'
  have nd1 := nd0
  simp only [List.nodup_cons, List.nodup_append, List.append_assoc, List.cons_append, List.mem_append, List.mem_cons,
    not_or] at nd1
  obtain ⟨⟨z1, z2, z3, z4⟩, ndP, ⟨⟨a1, a2⟩, ndX, ndQ, dX⟩, dP⟩ := nd1
  have hP : lst 0 A = 0 ∨ lst 0 A ∈ A := List.mem_cons.mp (lst_mem 0 A)
  have hX : lst x C = x ∨ lst x C ∈ C := List.mem_cons.mp (lst_mem x C)
  have hQ : hd B 0 = 0 ∨ hd B 0 ∈ B := hd_mem
  have n1 : lst x C ≠ lst 0 A := by
    intro e
    rcases hP with h | h
    · rcases hX with h' | h'
      · exact z2 (by rw [← h, ← h', e])
      · exact z3 (by rw [← h, ← e]; exact h')
    · rcases hX with h' | h'
      · exact dP _ h _ (Or.inl rfl) (e.symm.trans h')
      · exact dP _ h _ (Or.inr (Or.inl h')) e.symm
  have q1 : x ≠ hd B 0 := by
    intro e
    rcases hQ with h | h
    · exact z2 (by rw [e, h])
    · exact a2 (e ▸ h)
  have hbound : lst x C < t.len ∧ lst 0 A < t.len ∧ hd B 0 < t.len := by
    refine ⟨hlt ?_, hlt ?_, hlt ?_⟩
    · rcases hX with h | h <;> simp [h]
    · rcases hP with h | h <;> simp [h]
    · rcases hQ with h | h <;> simp [h]
  have done : ∀ {nx' pv' : Nat → Nat}, nx' (lst 0 A) = hd B 0 → pv' (hd B 0) = lst 0 A →
      (∀ i, i ≠ lst 0 A → i ≠ lst x C → nx' i = t.next i) → (∀ i, i ≠ x → i ≠ hd B 0 → pv' i = t.prev i) →
      Seg nx' pv' 0 (A ++ B) 0 := by
    intro nx' pv' h1 h2 h3 h4
    rw [seg_split]
    refine ⟨S1.retarget (List.nodup_cons.mpr ⟨z1, ndP⟩) ?_ h1 ?_ h2, S3.congr ?_ ?_ ?_⟩
    · intro i hi hne
      refine h3 i hne ?_
      rintro rfl
      rcases List.mem_cons.mp hi with h | h
      · rcases hX with h' | h'
        · exact z2 (h.symm.trans h')
        · exact z3 (h ▸ h')
      · rcases hX with h' | h'
        · exact dP _ h _ (Or.inl h') rfl
        · exact dP _ h _ (Or.inr (Or.inl h')) rfl
    · intro i hi
      refine h4 i ?_ ?_
      · rintro rfl; exact dP _ hi _ (Or.inl rfl) rfl
      · rintro rfl
        rcases hQ with h | h
        · exact z1 (h ▸ hi)
        · exact dP _ hi _ (Or.inr (Or.inr h)) rfl
    · intro i hi
      refine h3 i ?_ ?_
      · rintro rfl
        rcases hP with h | h
        · exact z4 (h ▸ hi)
        · exact dP _ h _ (Or.inr (Or.inr hi)) rfl
      · rintro rfl
        rcases hX with h | h
        · exact a2 (h ▸ hi)
        · exact dX _ h _ hi rfl
    · intro i hi
      have hi' := List.mem_of_mem_tail hi
      refine h4 i ?_ ?_
      · rintro rfl; exact a2 hi'
      · rintro rfl
        cases B with
        | nil => simp at hi
        | cons q B => exact (List.nodup_cons.mp ndQ).1 hi
    · intro hne
      refine h4 0 z2 ?_
      intro h
      cases B with
      | nil => exact hne rfl
      | cons q B => exact z4 (by rw [h]; simp [hd])
  rcases hp with rfl | rfl
  · refine ⟨_, move_eq S1.prev S1.prev hl (seg_last S2) (hlt (by simp)) (hlt (by simp)) hbound.1 hbound.2.1
      hbound.2.1 hbound.2.2, fin (done (upd_self _ _ _) (upd_self _ _ _) ?_ ?_), rfl, rfl, rfl⟩
    · intro i h1 h2
      rw [upd_ne _ _ h1, upd_ne _ _ h2, upd_ne _ _ h1]
    · intro i h1 h2
      rw [upd_ne _ _ h2, upd_ne _ _ h1, upd_ne _ _ h1]
  · refine ⟨_, move_eq S2.prev S1.prev hl (seg_last S2) hbound.2.2 (hlt (by simp)) hbound.1 hbound.1
      hbound.2.1 hbound.2.2, fin (done (upd_self _ _ _) (upd_self _ _ _) ?_ ?_), rfl, rfl, rfl⟩
    · intro i h1 h2
      rw [upd_ne _ _ h1, upd_ne _ _ h2, upd_ne _ _ h2]
    · intro i h1 h2
      rw [upd_ne _ _ h2, upd_ne _ _ h2, upd_ne _ _ h1]

section
variable [Inhabited α] {t : T α} {f : TF α} {l d : List Nat}

/-- What is known of a forest without the tree `x`. -/
theorem Rep.without (R : Rep t f l d) {x} (hx : x ∈ ids f) :
    ∃ v k q A B, find f x = some (v, k) ∧ (q = 0 ∨ q ∈ ids f) ∧ children f q = A ++ x :: B ∧
      children (Forest.erase x f) q = A ++ B ∧
      (∀ q', q' ≠ q → q' = 0 ∨ q' ∈ ids (Forest.erase x f) → children (Forest.erase x f) q' = children f q') ∧
      (nodes f).Perm ((x, v) :: nodes k ++ nodes (Forest.erase x f)) ∧ (x :: ids k ++ ids (Forest.erase x f)).Nodup ∧
      0 ∉ ids (Forest.erase x f) := by
  obtain ⟨v, k, q, A, B, hf, -, hq, hc, hc', ho, -, -, hp⟩ := erase_spec R.nd R.zero hx
  refine ⟨v, k, q, A, B, hf, hq.imp id ids_erase_sub, hc, hc', ho, hp, ?_, fun h => R.zero (ids_erase_sub h)⟩
  have h1 := hp.map Prod.fst
  rw [← ids_eq, List.cons_append, List.map_cons, List.map_append, ← ids_eq, ← ids_eq] at h1
  exact h1.nodup_iff.mp R.nd

theorem Rep.place_inj (R : Rep t f l d) {p a b} (ha : Tags.IsPos f p a) (hb : Tags.IsPos f p b) (h : place f p a = place f p b) :
    a = b := by
  have key : ∀ c, c ≠ 0 → Tags.IsPos f p c → c ≠ close f p := by
    intro c hc hp e
    have hci := children_sub f p c (hp.2.resolve_left hc)
    rcases hp.1 with rfl | ⟨h1, h2⟩
    · rw [close, if_pos rfl] at e; exact hc e
    · obtain ⟨y, k, hf⟩ := find_some h1
      rw [close_find R.zero hf] at e h2
      refine ids_ends R.ok R.lk.ndw hci ?_
      rw [e]
      exact List.mem_filter.mpr ⟨List.mem_map.mpr ⟨_, find_node R hf, rfl⟩, by simpa using h2⟩
  unfold place at h
  by_cases h1 : a = 0 <;> by_cases h2 : b = 0
  · rw [h1, h2]
  · rw [if_pos h1, if_neg h2] at h; exact absurd h.symm (key b h2 hb)
  · rw [if_neg h1, if_pos h2] at h; exact absurd h (key a h1 ha)
  · rwa [if_neg h1, if_neg h2] at h

theorem after_mid {x : Nat} {A B : List Nat} (h : x ∉ A) : after x (A ++ x :: B) = B.headD 0 := by
  induction A with
  | nil => rw [List.nil_append, after, if_pos rfl]
  | cons a A ih =>
    simp only [List.mem_cons, not_or] at h
    rw [List.cons_append, after, if_neg (fun e => h.1 e.symm), ih h.2]

theorem roots_sublist (g : Forest α) : (roots g).Sublist (ids g) := by
  induction g with
  | nil => exact .slnil
  | cons i x k s _ hs => exact .cons_cons _ (hs.trans (List.sublist_append_right _ _))

theorem Rep.child_nd (R : Rep t f l d) {q} (hq : Holds f q) : (children f q).Nodup := by
  obtain ⟨h1, h2, h3⟩ := R.under_nodes hq
  rcases hq with rfl | ⟨hq, hc⟩
  · rw [children, if_pos rfl]
    exact (roots_sublist f).nodup R.nd
  · rw [← h3]
    obtain ⟨y, c, hf⟩ := find_some hq
    rw [under_find R.zero hf]
    have : (ids c).Nodup := by
      have h1 := (nodes_erase R.nd hf).map Prod.fst
      rw [← ids_eq, List.cons_append, List.map_cons, List.map_append, ← ids_eq, ← ids_eq] at h1
      have := h1.nodup_iff.mp R.nd
      exact (List.nodup_append.mp (List.nodup_cons.mp this).2).1
    exact (roots_sublist c).nodup this

theorem move_rep (R : Rep t f l d) {p pos q x} (hp : Tags.IsPos f p pos) (hx : IsNode f q x) (hi : ¬ inside f x p)
    (hs : ¬ Stays f p pos x) :
    ∃ t', Verif.Model.TagTree.move t (place f p pos) x = some (t', x) ∧ Rep t' (Forest.move p pos x f) l d ∧
      (nodes (Forest.move p pos x f)).Perm (nodes f) ∧
      ∃ A B, children (Forest.move p pos x f) p = A ++ x :: B ∧ B.headD 0 = pos := by
  have hxm := isNode_mem hx
  obtain ⟨v, k, q', A0, B0, hf, hq', hc, hc', ho, hpm, hnd, h0⟩ := R.without hxm
  have hx0 : x ≠ 0 := fun e => R.zero (e ▸ hxm)
  have hins : ∀ y, inside f x y ↔ y = x ∨ y ∈ ids k := by intro y; simp [inside, descendants, hf]
  rw [hins, not_or] at hi
  have hnd' := hnd
  rw [List.cons_append, List.nodup_cons, List.nodup_append] at hnd'
  obtain ⟨nx, ndk, ndE, dis⟩ := hnd'
  have hmem : ∀ y ∈ ids f, y ≠ x → y ∉ ids k → y ∈ ids (Forest.erase x f) := by
    intro y hy h1 h2
    have := (hpm.map Prod.fst).mem_iff (a := y)
    rw [← ids_eq, List.cons_append, List.map_cons, List.map_append, ← ids_eq, ← ids_eq] at this
    have := this.mp hy
    simpa [h1, h2] using this
  have hposx : pos ≠ x := fun e => hs (Or.inl e)
  have hpE : p = 0 ∨ p ∈ ids (Forest.erase x f) := hp.1.imp id (fun h => hmem p h.1 hi.1 hi.2)
  have hcE : pos = 0 ∨ pos ∈ children (Forest.erase x f) p := by
    refine hp.2.imp id (fun h => ?_)
    by_cases e : p = q'
    · subst e; rw [hc'] ; rw [hc] at h; simpa [hposx] using h
    · rw [ho p e hpE]; exact h
  have hclose : close (Forest.erase x f) p = close f p := by
    rcases hpE with rfl | h
    · simp [close]
    · rw [ids_eq] at h
      obtain ⟨n, hn, rfl⟩ := List.mem_map.mp h
      obtain ⟨k1, e1⟩ := Verif.Proof.Tree.find_iff_mem (x := n.1) (v := n.2) ndE hn
      obtain ⟨k2, e2⟩ := Verif.Proof.Tree.find_iff_mem (x := n.1) (v := n.2) R.nd (hpm.mem_iff.mpr (by simp [hn]))
      rw [close_find h0 e1, close_find R.zero e2]
  have hpos : Tags.IsPos (Forest.erase x f) p pos := by
    refine ⟨?_, hcE⟩
    rcases hp.1 with h | h
    · exact Or.inl h
    · exact Or.inr ⟨hmem p h.1 hi.1 hi.2, by rw [hclose]; exact h.2⟩
  have hplace : place (Forest.erase x f) p pos = place f p pos := by rw [place, place, hclose]
  have hmove : Forest.move p pos x f = Forest.insert p pos x v k (Forest.erase x f) := by
    rw [Forest.move, if_neg, hf]
    rw [hins, hins]
    rintro ((h | h) | h)
    · exact hposx h
    · by_cases hz : pos = 0
      · have : pos ∈ ids f := by
          have hz' := (hpm.map Prod.fst).mem_iff (a := pos)
          rw [← ids_eq, List.cons_append, List.map_cons, List.map_append, ← ids_eq, ← ids_eq] at hz'
          exact hz'.mpr (by simp [h])
        exact R.zero (hz ▸ this)
      · exact dis _ h _ (children_sub _ p pos (hcE.resolve_left hz)) rfl
    · rcases h with h | h
      · exact hi.1 h
      · exact hi.2 h
  obtain ⟨A', B', n1, n2, n3⟩ := names_insert (n := x) (x := v) (k := k) (wf_erase R.ok x) ndE h0 hpos
  obtain ⟨A, B, m1, m2⟩ := names_erase R.ok R.nd hf
  obtain ⟨y1, k1, hf1, hnext, -⟩ := R.around hq' hc
  have e1 : (y1, k1) = (v, k) := Option.some.inj (hf1.symm.trans hf)
  injection e1 with e1 e2
  subst e1 e2
  obtain ⟨C, hC⟩ : ∃ C, tags x y1 k1 = x :: C := ⟨_, rfl⟩
  have L := R.lk
  rw [m1, hC] at L
  have hlast := lastTag_rep R hf 0
  rw [hC] at hlast
  have hB : hd B 0 = place f q' (B0.headD 0) := by
    rw [← hnext, hC]
    have S := L.main
    rw [seg_split, seg_split] at S
    have S' : Seg t.next t.prev 0 (A ++ x :: (C ++ B)) 0 := by simpa using L.main
    obtain ⟨-, S'⟩ := seg_mid.mp S'
    exact (seg_last (seg_split.mp S').1).symm
  have hne : hd B' 0 ≠ hd B 0 := by
    rw [n2, hplace, hB]
    intro e
    have i2 := R.isPos hq' hc
    have p1 := R.parent hp
    have p2 := R.parent i2
    rw [e, p2] at p1
    have := Option.some.inj p1
    subst this
    have e' := R.place_inj hp i2 e
    refine hs (Or.inr ⟨by rw [hc]; simp, ?_⟩)
    have nd := R.child_nd hp.1
    rw [hc] at nd ⊢
    rw [after_mid, e']
    intro h
    exact (List.nodup_append.mp nd).2.2 _ h _ (by simp) rfl
  obtain ⟨t', em, L', hv, hh, ht⟩ := move_lk L hlast (m2.symm.trans n1) hne
  rw [n2, hplace] at em
  refine ⟨t', em, ?_⟩
  rw [hmove]
  obtain ⟨A2, B2, -, hB2, hins1, -, -, -, hins2⟩ := insert_spec (n := x) (v := y1) (k := k1) ndE h0 (isPos_of hpos)
    (fun h => nx (by simp [h])) hx0 (fun z hz => ⟨fun h => dis _ hz _ h rfl, fun e => nx (by simp [← e, hz]), fun e =>
      R.zero (by
        have hz' := (hpm.map Prod.fst).mem_iff (a := z)
        rw [← ids_eq, List.cons_append, List.map_cons, List.map_append, ← ids_eq, ← ids_eq] at hz'
        rw [← e]; exact hz'.mpr (by simp [hz]))⟩)
  obtain ⟨w1, w2⟩ := wf_find R.ok hf
  refine ⟨⟨?_, ?_, wf_insert (wf_erase R.ok x) ndE h0 hpos w1 w2⟩, hins2.trans hpm.symm, A2, B2, hins1, hB2⟩
  · rw [n3, hC]; exact L'
  · intro n hn
    refine (R.tg n (hpm.mem_iff.mpr (hins2.mem_iff.mp hn))).congr ?_ ?_ <;> simp [hv, hh, ht]

/-- A tree moved to where it is gets lost. -/
theorem move_lost (R : Rep t f l []) {p pos q x} (hp : Tags.IsPos f p pos) (hx : IsNode f q x) (hs : Stays f p pos x) :
    ∃ t' d, Verif.Model.TagTree.move t (place f p pos) x = some (t', x) ∧ Rep t' (Forest.erase x f) l d := by
  have hxm := isNode_mem hx
  have hx0 : x ≠ 0 := fun e => R.zero (e ▸ hxm)
  obtain ⟨v, k, q', A0, B0, hf, hq', hc, hc', ho, hpm, hnd, h0⟩ := R.without hxm
  obtain ⟨A, B, m1, m2⟩ := names_erase R.ok R.nd hf
  obtain ⟨y1, k1, hf1, hnext, -⟩ := R.around hq' hc
  have e1 : (y1, k1) = (v, k) := Option.some.inj (hf1.symm.trans hf)
  injection e1 with e1 e2
  subst e1 e2
  obtain ⟨C, hC⟩ : ∃ C, tags x y1 k1 = x :: C := ⟨_, rfl⟩
  have L := R.lk
  rw [m1, hC] at L
  have hlast := lastTag_rep R hf 0
  rw [hC] at hlast
  have hB : hd B 0 = place f q' (B0.headD 0) := by
    rw [← hnext, hC]
    have S' : Seg t.next t.prev 0 (A ++ x :: (C ++ B)) 0 := by simpa using L.main
    obtain ⟨-, S'⟩ := seg_mid.mp S'
    exact (seg_last (seg_split.mp S').1).symm
  have hwhere : place f p pos = x ∨ place f p pos = hd B 0 := by
    rcases hs with rfl | ⟨h1, h2⟩
    · exact Or.inl (if_neg hx0)
    · right
      rw [hB]
      have hpx : Tags.IsPos f p x := ⟨hp.1, Or.inr h1⟩
      have hqx : Tags.IsPos f q' x := ⟨R.holds_of_child (x := x) hq' (by rw [hc]; simp), Or.inr (by rw [hc]; simp)⟩
      have r1 := R.parent hpx
      have r2 := R.parent hqx
      rw [place, if_neg hx0] at r1 r2
      have : p = q' := Option.some.inj (r1.symm.trans r2)
      subst this
      have nd := R.child_nd hp.1
      rw [hc] at nd h2
      rw [after_mid] at h2
      · rw [h2]
      · intro h
        exact (List.nodup_append.mp nd).2.2 _ h _ (by simp) rfl
  obtain ⟨t', em, L', hv, hh, ht⟩ := move_drop L hlast hwhere
  refine ⟨t', x :: C, em, ?_, ?_, wf_erase R.ok x⟩
  · rw [m2]; exact L'
  · intro n hn
    refine (R.tg n (hpm.mem_iff.mpr (by simp [hn]))).congr ?_ ?_ <;> simp [hv, hh, ht]
end

end Verif.Proof.TagTree
