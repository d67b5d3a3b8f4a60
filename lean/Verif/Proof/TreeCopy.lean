import Verif.Proof.TreeIter
import Mathlib.Data.List.Induction

/-! Copying a subtree. -/
namespace Verif.Proof.Tree
open Verif.Model.Tree Verif.Spec Verif.Spec.Forest
variable {α : Type}

/-- Put the trees `K` behind the children of the node `d`. -/
def appendUnder (d : Nat) (K : Forest α) : Forest α → Forest α
  | .nil => .nil
  | .cons i w c s => .cons i w (if i = d then append c K else appendUnder d K c) (appendUnder d K s)

theorem insertBefore_end {m : Nat} {w : α} {k f : Forest α} (h : 0 ∉ ids f) :
    insertBefore 0 m w k f = append f (.cons m w k .nil) := by
  induction f with
  | nil => rfl
  | cons i v c s _ hs =>
    simp only [ids, List.mem_cons, List.mem_append, not_or] at h
    rw [insertBefore, if_neg (fun e => h.1 e.symm), hs h.2.2, append]

theorem insertUnder_end {d m : Nat} {w : α} {E : Forest α} (h : 0 ∉ ids E) :
    insertUnder d 0 m w .nil E = appendUnder d (.cons m w .nil .nil) E := by
  induction E with
  | nil => rfl
  | cons i v c s hc hs =>
    simp only [ids, List.mem_cons, List.mem_append, not_or] at h
    rw [insertUnder, appendUnder, hs h.2.2, hc h.2.1, insertBefore_end h.2.1]

theorem appendUnder_not_mem {d : Nat} {K E : Forest α} (h : d ∉ ids E) : appendUnder d K E = E := by
  induction E with
  | nil => rfl
  | cons i v c s hc hs =>
    simp only [ids, List.mem_cons, List.mem_append, not_or] at h
    rw [appendUnder, if_neg (fun e => h.1 e.symm), hc h.2.1, hs h.2.2]

theorem appendUnder_append (d : Nat) (K f g : Forest α) :
    appendUnder d K (append f g) = append (appendUnder d K f) (appendUnder d K g) := by
  induction f with
  | nil => rfl
  | cons i v c s _ hs => rw [append, appendUnder, appendUnder, append, hs]

theorem appendUnder_deep {d m : Nat} {w : α} {C E : Forest α} (hm : m ∉ ids E) (hd : d ≠ m) :
    appendUnder m C (appendUnder d (.cons m w .nil .nil) E) = appendUnder d (.cons m w C .nil) E := by
  induction E with
  | nil => rfl
  | cons i v c s hc hs =>
    simp only [ids, List.mem_cons, List.mem_append, not_or] at hm
    rw [appendUnder, appendUnder, appendUnder, if_neg (fun e => hm.1 e.symm), hs hm.2.2]
    by_cases hi : i = d
    · rw [if_pos hi, if_pos hi, appendUnder_append, appendUnder_not_mem hm.2.1]
      simp [appendUnder, append]
    · rw [if_neg hi, if_neg hi, hc hm.2.1]

theorem appendUnder_twice {d : Nat} {K S E : Forest α} (hK : d ∉ ids K) (nd : (ids E).Nodup) :
    appendUnder d S (appendUnder d K E) = appendUnder d (append K S) E := by
  induction E with
  | nil => rfl
  | cons i v c s hc hs =>
    obtain ⟨a, b, ndc, nds, e⟩ := nodup_cons nd
    rw [appendUnder, appendUnder, appendUnder, hs nds]
    by_cases hi : i = d
    · rw [if_pos hi, if_pos hi, if_pos hi, append_assoc']
    · rw [if_neg hi, if_neg hi, if_neg hi, hc ndc]

theorem appendUnder_insertBefore {pos n : Nat} {v : α} {K f : Forest α} (hn : n ∉ ids f) :
    appendUnder n K (insertBefore pos n v .nil f) = insertBefore pos n v K f := by
  induction f with
  | nil => simp [insertBefore, appendUnder, append]
  | cons i w c s hc hs =>
    have h0 := hn
    simp only [ids, List.mem_cons, List.mem_append, not_or] at hn
    rw [insertBefore, insertBefore]
    by_cases hi : i = pos
    · rw [if_pos hi, if_pos hi, appendUnder, if_pos rfl, appendUnder_not_mem h0]; rfl
    · rw [if_neg hi, if_neg hi, appendUnder, if_neg (fun e => hn.1 e.symm), hs hn.2.2, appendUnder_not_mem hn.2.1]

theorem appendUnder_insertUnder {p pos n : Nat} {v : α} {K f : Forest α} (hn : n ∉ ids f) :
    appendUnder n K (insertUnder p pos n v .nil f) = insertUnder p pos n v K f := by
  induction f with
  | nil => rfl
  | cons i w c s hc hs =>
    simp only [ids, List.mem_cons, List.mem_append, not_or] at hn
    rw [insertUnder, insertUnder, appendUnder, if_neg (fun e => hn.1 e.symm), hs hn.2.2]
    by_cases hi : i = p
    · rw [if_pos hi, if_pos hi, appendUnder_insertBefore hn.2.1]
    · rw [if_neg hi, if_neg hi, hc hn.2.1]

theorem appendUnder_insert {p pos n : Nat} {v : α} {K f : Forest α} (hn : n ∉ ids f) :
    appendUnder n K (Forest.insert p pos n v .nil f) = Forest.insert p pos n v K f := by
  unfold Forest.insert
  split
  · exact appendUnder_insertBefore hn
  · exact appendUnder_insertUnder hn

theorem find_append (f g : Forest α) (x : Nat) : find (append f g) x = (find f x).or (find g x) := by
  induction f with
  | nil => simp [append, find]
  | cons i v k s _ hs =>
    rw [append, find, find, hs]
    split
    · rfl
    · rw [Option.or_assoc]

theorem find_insertBefore {pos n x : Nat} {w : α} {f : Forest α} (hx : x ≠ n) :
    find (insertBefore pos n w .nil f) x = find f x := by
  induction f with
  | nil => simp [insertBefore, find, hx]
  | cons i v c s hc hs =>
    rw [insertBefore]
    split
    · rw [find, if_neg hx]; simp [find]
    · rw [find, find, hs]

theorem find_insertUnder {p pos n x : Nat} {v w : α} {k f : Forest α} (hx : x ≠ n) (hp : p ≠ x) (hpk : p ∉ ids k)
    (nd : (ids f).Nodup) (h : find f x = some (v, k)) : find (insertUnder p pos n w .nil f) x = some (v, k) := by
  induction f with
  | nil => simp [find] at h
  | cons i v' c s hc hs =>
    obtain ⟨a, b, ndc, nds, e⟩ := nodup_cons nd
    rw [find] at h
    rw [insertUnder, find]
    by_cases hi : x = i
    · rw [if_pos hi] at h ⊢
      obtain ⟨rfl, rfl⟩ : v' = v ∧ c = k := by simpa using h
      rw [if_neg (by rintro rfl; exact hp hi.symm), insertUnder_not_mem hpk]
    · rw [if_neg hi] at h ⊢
      by_cases hxc : x ∈ ids c
      · have hxs := e x hxc
        rw [find_none hxs, Option.or_none] at h
        by_cases hip : i = p
        · rw [if_pos hip, find_insertBefore hx, h]; rfl
        · rw [if_neg hip, hc ndc h]; rfl
      · rw [find_none hxc, Option.none_or] at h
        by_cases hip : i = p
        · rw [if_pos hip, find_insertBefore hx, find_none hxc, Option.none_or, hs nds h]
        · rw [if_neg hip, Option.or_eq_some_iff]
          refine Or.inr ⟨?_, hs nds h⟩
          by_cases hpc : p ∈ ids c
          · apply find_none
            have := (nodes_insertUnder (pos := pos) (n := n) (v := w) (k := .nil) c ndc hpc).map Prod.fst
            rw [← ids_eq] at this
            rw [this.mem_iff]
            simp [nodes, ← ids_eq, hx, hxc]
          · rw [insertUnder_not_mem hpc, find_none hxc]

theorem find_insert {p pos n x : Nat} {v w : α} {k f : Forest α} (hx : x ≠ n) (hp : p ≠ x) (hpk : p ∉ ids k)
    (nd : (ids f).Nodup) (h : find f x = some (v, k)) : find (Forest.insert p pos n w .nil f) x = some (v, k) := by
  unfold Forest.insert
  split
  · rw [find_insertBefore hx, h]
  · exact find_insertUnder hx hp hpk nd h

/-- The subtree `(x, v, k)` under `q` hangs in `S`. -/
structure Src (S : T α) (q x : Nat) (v : α) (k : Forest α) : Prop where
  hung : Hung S (.cons x v k .nil)
  par : S.parent x = q
  val : ∀ e ∈ nodes (.cons x v k .nil), S.val e.1 = e.2

theorem Rep.src {t : T α} {f l} (R : Rep t f .nil l) {q x v k} (h : find f x = some (v, k)) (hn : IsNode f q x) :
    Src t q x v k := by
  have hx : x ∈ ids f := children_sub f q x hn.2
  have hk := find_kids R.ndf h
  have hperm := nodes_erase R.ndf h
  have hidp := hperm.map Prod.fst
  rw [← ids_eq] at hidp
  have hsub : ∀ y ∈ ids (Forest.cons x v k .nil), y ∈ ids f := by
    intro y hy
    apply hidp.mem_iff.mpr
    simp only [ids, List.append_nil, List.mem_cons, List.map_append, List.map_cons, List.mem_append, ids_eq] at hy ⊢
    exact Or.inl hy
  have nd : (ids (Forest.cons x v k .nil)).Nodup := by
    have := hidp.nodup_iff.mp R.ndf
    rw [List.map_append] at this
    have := (List.nodup_append.mp this).1
    simpa [ids, ids_eq] using this
  refine ⟨?_, R.parent_eq hn, ?_⟩
  · have F := R.fhung
    refine ⟨nd, fun w => F.zero (hsub 0 w), fun y hy => F.lt y (hsub y hy), fun p hp => ?_⟩
    have := F.chain p (hsub p hp)
    simp only [ids, List.append_nil, List.mem_cons] at hp
    rcases hp with rfl | hp
    · rwa [kidsOf_self, ← hk.1]
    · rwa [kidsOf_left nd hp, ← hk.2 p hp]
  · intro e he
    apply R.val
    simp only [nodes, List.append_nil, List.mem_cons] at he ⊢
    apply hperm.mem_iff.mpr
    simp only [List.mem_append, List.mem_cons]
    exact Or.inl he

/-- The source: another tree, or the tree itself with the forest `E`. -/
def SrcOk (s : Option (T α)) (E : Forest α) (q x : Nat) (v : α) (k : Forest α) : Prop :=
  match s with
  | some S => Src S q x v k
  | none => find E x = some (v, k) ∧ IsNode E q x

/-- The node or place `d` is not in the source. -/
def Apart (s : Option (T α)) (d x : Nat) (k : Forest α) : Prop := s = none → d ≠ x ∧ d ∉ ids k

theorem SrcOk.src {s : Option (T α)} {t E l q x v k} (h : SrcOk s E q x v k) (R : Rep t E .nil l) :
    Src (s.getD t) q x v k := by
  cases s with
  | some S => exact h
  | none => exact R.src h.1 h.2

theorem SrcOk.insert {s : Option (T α)} {E : Forest α} {q x v k p pos n w} (h : SrcOk s E q x v k)
    (nd : (ids E).Nodup) (h0 : 0 ∉ ids E) (hp : IsPos E p pos) (hn : n ∉ ids E) (hn0 : n ≠ 0) (ha : Apart s p x k) :
    SrcOk s (Forest.insert p pos n w .nil E) q x v k := by
  cases s with
  | some S => exact h
  | none =>
    obtain ⟨h1, h2⟩ := h
    have hx := children_sub E q x h2.2
    have hxn : x ≠ n := by rintro rfl; exact hn hx
    refine ⟨find_insert hxn (ha rfl).1 (ha rfl).2 nd h1, ?_⟩
    obtain ⟨A, B, e1, e2, e3, e4, _, _, hperm⟩ := insert_spec (v := w) (k := .nil) nd h0 hp hn hn0 (by simp [ids])
    refine ⟨h2.1.imp id fun w' => ?_, ?_⟩
    · have := hperm.map Prod.fst
      rw [← ids_eq] at this
      rw [this.mem_iff]
      simp [nodes, ← ids_eq, w']
    · by_cases hqp : q = p
      · subst hqp
        have := h2.2
        rw [e1] at this
        rw [e3]
        simp at this ⊢
        tauto
      · rw [e4 q hqp h2.1]; exact h2.2

/-- Walking backwards over siblings. -/
theorem pushRev_spec {t : T α} {p : Nat} (hp : p ≠ 0) (hpl : p < t.len) {L : List Nat} (C : Chain t p L) (nd : L.Nodup)
    (h : ∀ x ∈ L, x ≠ 0 ∧ x < t.len) : ∀ (A B : List Nat) (fuel : Nat) (v : List It), L = A ++ B → A.length ≤ fuel →
    pushRev t ⟨p, L.headD 0⟩ fuel ⟨p, B.headD 0⟩ v = some (A.map (It.mk p) ++ v) := by
  intro A
  induction A using List.reverseRecOn with
  | nil =>
    intro B fuel v e _
    rw [pushRev.eq_def]; dsimp only
    rw [e, List.nil_append, if_pos rfl]; rfl
  | append_singleton A a ih =>
    intro B fuel v e hf
    have e' : L = A ++ a :: B := by rw [e]; simp
    have ha := h a (by rw [e']; simp)
    cases fuel with
    | zero => simp at hf
    | succ fuel =>
      have hne : (⟨p, B.headD 0⟩ : It) ≠ ⟨p, L.headD 0⟩ := by
        intro w
        have w : B.headD 0 = L.headD 0 := by simpa using w
        have hL : L.headD 0 ∈ A ++ [a] := by
          rw [e]
          cases A with
          | nil => simp
          | cons b A => simp
        have h1 : L.headD 0 ≠ 0 := (h _ (by rw [show L = A ++ [a] ++ B from e] at *; exact List.mem_append.mpr (Or.inl hL))).1
        have hB : B ≠ [] := by
          rintro rfl
          rw [← w] at h1
          exact h1 rfl
        have := headD_mem hB 0
        rw [w] at this
        rw [e] at nd
        exact (List.nodup_append.mp nd).2.2 _ hL _ this rfl
      rw [pushRev, if_neg hne]
      have hdec : (⟨p, B.headD 0⟩ : It).decr true t = some ⟨p, a⟩ := by
        unfold It.decr
        dsimp only
        by_cases hB : B = []
        · subst hB
          rw [List.headD_nil, if_neg (by simp), if_pos hp]
          unfold T.rd
          rw [if_pos hpl, Option.bind_some, C.head]
          have hhd : L.headD 0 < t.len := by
            rw [e']
            cases A with
            | nil => exact ha.2
            | cons b A => exact (h b (by rw [e']; simp)).2
          rw [if_pos hhd, Option.map_some]
          cases A with
          | nil =>
            have := C.pv [] a [] e'
            rw [if_pos rfl] at this
            rw [e', List.nil_append, List.headD_cons, this]; rfl
          | cons b A =>
            have := C.pv [] b (A ++ [a]) (by rw [e']; rfl)
            rw [if_pos rfl, getLastD_concat] at this
            rw [e', List.cons_append, List.headD_cons, this]
        · obtain ⟨b, B', rfl⟩ : ∃ b B', B = b :: B' := by
            cases B with
            | nil => exact absurd rfl hB
            | cons b B => exact ⟨b, B, rfl⟩
          have hb := h b (by rw [e]; simp)
          rw [List.headD_cons, if_pos hb.1]
          unfold T.rd
          rw [if_pos hpl, Option.bind_some, if_neg, if_pos hb.2, Option.map_some]
          · have := C.pv (A ++ [a]) b B' (by rw [e])
            rw [if_neg (by simp), getLastD_concat] at this
            rw [this]
          · rintro ⟨_, w⟩
            apply w
            refine ⟨hp, ?_⟩
            rw [C.head]
            intro w
            exact hne (by rw [w]; rfl)
      rw [hdec, Option.bind_some]
      have := ih (a :: B) fuel (⟨p, a⟩ :: v) e' (by simp at hf; omega)
      rw [List.headD_cons] at this
      rw [this]
      simp

theorem pushChildren_spec {t : T α} {g : Forest α} (H : Hung t g) {i : Nat} (hi : i ∈ ids g) (q : Nat) (v : List It) :
    pushChildren t ⟨q, i⟩ v = some ((kidsOf g i).map (It.mk i) ++ v) := by
  have C := H.chain i hi
  have hi0 : i ≠ 0 := by rintro rfl; exact H.zero hi
  have hnd := children_nodup H.nd i
  rw [children, if_neg hi0] at hnd
  unfold pushChildren It.begin It.fin
  dsimp only
  rw [if_neg hi0, if_neg hi0]
  have hr : t.rd t.child i = some ((kidsOf g i).headD 0) := by
    unfold T.rd; rw [if_pos (H.lt i hi), C.head]
  rw [hr, Option.map_some, Option.bind_some, Option.bind_some]
  have := pushRev_spec hi0 (H.lt i hi) C hnd (by
    intro x hx
    have := kidsOf_sub g i x hx
    exact ⟨by rintro rfl; exact H.zero this, H.lt x this⟩) (kidsOf g i) [] t.len v (by simp)
    (len_le_of_lt hnd (fun x hx => H.lt x (kidsOf_sub g i x hx)))
  rw [List.headD_nil] at this
  exact this

/-- The copied names are new. -/
def NewIds (K E : Forest α) : Prop := (∀ x ∈ ids K, x ∉ ids E ∧ x ≠ 0) ∧ (ids K).Nodup

theorem ids_appendUnder {d : Nat} {K E : Forest α} (nd : (ids E).Nodup) (hd : d ∈ ids E) :
    (ids (appendUnder d K E)).Perm (ids K ++ ids E) := by
  induction E with
  | nil => simp [ids] at hd
  | cons i v c s hc hs =>
    obtain ⟨a, b, ndc, nds, e⟩ := nodup_cons nd
    rw [appendUnder]
    simp only [ids, List.mem_cons, List.mem_append] at hd
    by_cases hi : i = d
    · subst hi
      rw [if_pos rfl, appendUnder_not_mem b, ids, ids_append, ids, List.perm_iff_count]
      intro x
      simp only [List.count_cons, List.count_append]; omega
    · rw [if_neg hi]
      rcases hd with w | w | w
      · exact absurd w.symm hi
      · have := hc ndc w
        rw [appendUnder_not_mem (e d w), ids, ids, List.perm_iff_count]
        intro x
        have := List.perm_iff_count.mp this x
        simp only [List.count_cons, List.count_append] at this ⊢; omega
      · have := hs nds w
        rw [appendUnder_not_mem (fun w' => e d w' w), ids, ids, List.perm_iff_count]
        intro x
        have := List.perm_iff_count.mp this x
        simp only [List.count_cons, List.count_append] at this ⊢; omega

theorem copyLoop_spec {s : Option (T α)} {q x : Nat} {v : α} {k : Forest α} :
    ∀ (c : Forest α) (A : List Nat) (t : T α) (E : Forest α) (l : List Nat) (d dp y yp : Nat) (X Y : List (It × It))
      (rest : List It) (fuel : Nat),
      Rep t E .nil l → SrcOk s E q x v k → d ∈ ids E → Apart s d x k →
      gentle c → (ids c).Nodup →
      (y = x ∨ y ∈ ids k) → y ∉ ids c → kidsOf (.cons x v k .nil) y = A ++ roots c →
      (∀ p ∈ ids c, p ∈ ids k ∧ kidsOf (.cons x v k .nil) p = kidsOf c p) →
      (∀ e ∈ nodes c, e ∈ nodes k) →
      (s.getD t).parent y = yp →
      (Y = (⟨dp, d⟩, ⟨yp, y⟩) :: X ∨ ∃ z, Y = z :: (⟨dp, d⟩, ⟨yp, y⟩) :: X ∧ z.2.idx ≠ y) →
      ∃ t' l' K Y', copyLoop s (fuel + c.size) Y ((roots c).map (It.mk y) ++ rest) t = copyLoop s fuel Y' rest t' ∧
        Rep t' (appendUnder d K E) .nil l' ∧ SrcOk s (appendUnder d K E) q x v k ∧ alike K c ∧ NewIds K E ∧
        (∀ p, p ∈ ids (Forest.cons x v k .nil) → (s.getD t').parent p = (s.getD t).parent p) ∧
        (c ≠ .nil → lastLeaf c → Y' = (⟨dp, d⟩, ⟨yp, y⟩) :: X) := by
  intro c
  induction c with
  | nil =>
    intro A t E l d dp y yp X Y rest fuel R hs hd ha hg ndc hy hyc hk hsub hnod hyp hY
    have hE : appendUnder d .nil E = E := by
      clear R hs hd
      induction E with
      | nil => rfl
      | cons i v c s hc hs =>
        rw [appendUnder, hs, hc, append_nil']
        split <;> rfl
    refine ⟨t, l, .nil, Y, by simp [roots, Forest.size, ids], by rw [hE]; exact R, by rw [hE]; exact hs, trivial,
      ⟨by simp [ids], by simp [ids]⟩, fun _ _ => rfl, fun h => absurd rfl h⟩
  | cons i w c r hc hr =>
    intro A t E l d dp y yp X Y rest fuel R hs hd ha hg ndc hy hyc hk hsub hnod hyp hY
    obtain ⟨hg1, hg2, hg3⟩ := hg
    have S := hs.src R
    have hik : i ∈ ids k := (hsub i (by simp [ids])).1
    have hisrc : i ∈ ids (Forest.cons x v k .nil) := by simp [ids, hik]
    have hysrc : y ∈ ids (Forest.cons x v k .nil) := by simpa [ids] using hy
    have hy0 : y ≠ 0 := by rintro rfl; exact S.hung.zero hysrc
    have hyi : y ≠ i := by rintro rfl; exact hyc (by simp [ids])
    have hyr : y ∉ ids r := fun w => hyc (by simp [ids, w])
    have hyc' : y ∉ ids c := fun w => hyc (by simp [ids, w])
    -- the parent stack is popped when needed
    have hup : (⟨y, i⟩ : It).up (s.getD t) = some ⟨yp, y⟩ := by
      unfold It.up T.rd
      dsimp only
      rw [if_neg hy0, if_pos (S.hung.lt y hysrc), hyp]; rfl
    have hpop : popParent (s.getD t) ⟨y, i⟩ Y = some ((⟨dp, d⟩, ⟨yp, y⟩) :: X) := by
      rcases hY with rfl | ⟨z, rfl, hz⟩
      · rw [popParent, hup, Option.map_some, if_neg (by simp)]
      · rw [popParent, hup, Option.map_some, if_pos]
        intro e
        exact hz (by rw [← e])
    have hd0 : d ≠ 0 := by rintro rfl; exact R.f0 hd
    have hfin : (⟨dp, d⟩ : It).fin = some ⟨d, 0⟩ := by unfold It.fin; rw [if_neg hd0]
    have hi0 : i ≠ 0 := by rintro rfl; exact S.hung.zero hisrc
    have hder : (⟨y, i⟩ : It).deref (s.getD t) = some w := by
      unfold It.deref T.rd
      dsimp only
      rw [if_neg hi0, if_pos (S.hung.lt i hisrc)]
      have := S.val (i, w) (by
        simp only [nodes, List.append_nil, List.mem_cons]
        exact Or.inr (hnod (i, w) (by simp [nodes])))
      rw [this]
    have hpos : IsPos E d 0 := ⟨Or.inr hd, Or.inl rfl⟩
    obtain ⟨t1, l1, e1, R1, _, hm0, hm⟩ := insert_rep R hpos w
    have hs1 : SrcOk s (Forest.insert d 0 (fresh E) w .nil E) q x v k := hs.insert R.ndf R.f0 hpos hm hm0 ha
    have S1 := hs1.src R1
    have hE1 : Forest.insert d 0 (fresh E) w .nil E = appendUnder d (.cons (fresh E) w .nil .nil) E := by
      unfold Forest.insert
      rw [if_neg hd0, insertUnder_end R.f0]
    rw [hE1] at R1 hs1
    generalize hM : fresh E = m at *
    have hmd : d ≠ m := by rintro rfl; exact hm hd
    -- parents of source nodes are unchanged
    have hpar1 : ∀ p, p ∈ ids (Forest.cons x v k .nil) → (s.getD t1).parent p = (s.getD t).parent p := by
      intro p hp
      cases s with
      | some S' => rfl
      | none =>
        simp only [Option.getD_none] at S S1 ⊢
        simp only [ids, List.append_nil, List.mem_cons] at hp
        rcases hp with rfl | hp
        · rw [S1.par, S.par]
        · obtain ⟨u, hu1, hu2⟩ : ∃ u, u ∈ ids (Forest.cons x v k .nil) ∧ p ∈ kidsOf (Forest.cons x v k .nil) u := by
            have hpp : p ∈ ids (Forest.cons x v k .nil) := by simp [ids, hp]
            obtain ⟨v', k', p', A', B', _, hpar, hp', c1, _⟩ := erase_spec S.hung.nd S.hung.zero hpp
            have hp0 : p' ≠ 0 := by
              rintro rfl
              have : p ∈ roots (Forest.cons x v k .nil) := by
                rw [children, if_pos rfl] at c1
                rw [c1]; simp
              simp only [roots, List.mem_singleton] at this
              subst this
              exact (nodup_cons S.hung.nd).1 hp
            refine ⟨p', ids_erase_sub (hp'.resolve_left hp0), ?_⟩
            rw [children, if_neg hp0] at c1
            rw [c1]; simp
          rw [(S1.hung.chain u hu1).par p hu2, (S.hung.chain u hu1).par p hu2]
    have hbeg : (⟨y, i⟩ : It).begin (s.getD t1) = some ⟨i, (roots c).headD 0⟩ := by
      unfold It.begin T.rd
      dsimp only
      rw [if_neg hi0, if_pos (S1.hung.lt i hisrc), (S1.hung.chain i hisrc).head, (hsub i (by simp [ids])).2, kidsOf_self]
      rfl
    have hfuel : fuel + (Forest.cons i w c r).size = (fuel + r.size + c.size) + 1 := by rw [size_cons]; omega
    have hstep : copyLoop s (fuel + (Forest.cons i w c r).size) Y ((roots (Forest.cons i w c r)).map (It.mk y) ++ rest) t =
        if (roots c).headD 0 ≠ 0 then
          copyLoop s (fuel + r.size + c.size) ((⟨d, m⟩, ⟨y, i⟩) :: (⟨dp, d⟩, ⟨yp, y⟩) :: X)
            ((roots c).map (It.mk i) ++ ((roots r).map (It.mk y) ++ rest)) t1
        else copyLoop s (fuel + r.size + c.size) ((⟨dp, d⟩, ⟨yp, y⟩) :: X) ((roots r).map (It.mk y) ++ rest) t1 := by
      rw [hfuel, roots, List.map_cons, List.cons_append, copyLoop, hpop, Option.bind_some]
      dsimp only
      rw [hfin, Option.bind_some, hder, Option.bind_some, e1, Option.bind_some]
      dsimp only
      rw [hbeg, Option.bind_some]
      dsimp only
      rw [pushChildren_spec S1.hung hisrc, Option.bind_some, (hsub i (by simp [ids])).2, kidsOf_self]
    -- the children of `i`
    obtain ⟨n1, n2, n3, n4, n5⟩ := nodup_cons ndc
    have hpy : (s.getD t1).parent i = y := by
      have := (S1.hung.chain y hysrc).par i (by rw [hk, roots]; simp)
      exact this
    have hpyp : (s.getD t1).parent y = yp := by rw [hpar1 y hysrc, hyp]
    have hmE : m ∈ ids (appendUnder d (.cons m w .nil .nil) E) := by
      rw [(ids_appendUnder R.ndf hd).mem_iff]; simp [ids]
    have hdE : d ∈ ids (appendUnder d (.cons m w .nil .nil) E) := by
      rw [(ids_appendUnder R.ndf hd).mem_iff]; simp [hd]
    have ham : Apart s m x k := by
      intro hn
      subst hn
      have hxE := children_sub E q x hs.2.2
      have hkE : ∀ z ∈ ids k, z ∈ ids E := by
        intro z hz
        have := (nodes_erase R.ndf hs.1).map Prod.fst
        rw [← ids_eq] at this
        rw [this.mem_iff]
        simp [← ids_eq, hz]
      exact ⟨by rintro rfl; exact hm hxE, fun w => hm (hkE m w)⟩
    have hsubc : ∀ p ∈ ids c, p ∈ ids k ∧ kidsOf (.cons x v k .nil) p = kidsOf c p := by
      intro p hp
      obtain ⟨h1, h2⟩ := hsub p (by simp [ids, hp])
      exact ⟨h1, by rw [h2, kidsOf_left ndc hp]⟩
    have hsubr : ∀ p ∈ ids r, p ∈ ids k ∧ kidsOf (.cons x v k .nil) p = kidsOf r p := by
      intro p hp
      obtain ⟨h1, h2⟩ := hsub p (by simp [ids, hp])
      exact ⟨h1, by rw [h2, kidsOf_right ndc hp]⟩
    have hki : kidsOf (.cons x v k .nil) i = [] ++ roots c := by rw [(hsub i (by simp [ids])).2, kidsOf_self]; rfl
    have hkr : kidsOf (.cons x v k .nil) y = (A ++ [i]) ++ roots r := by rw [hk, roots]; simp
    have hnc : ∀ e ∈ nodes c, e ∈ nodes k := fun e he => hnod e (by simp [nodes, he])
    have hnr : ∀ e ∈ nodes r, e ∈ nodes k := fun e he => hnod e (by simp [nodes, he])
    have hnew1 : ∀ z, z ∉ ids (appendUnder d (.cons m w .nil .nil) E) → z ≠ m ∧ z ∉ ids E := by
      intro z hz
      rw [(ids_appendUnder R.ndf hd).mem_iff] at hz
      simpa [ids] using hz
    by_cases hcn : c = .nil
    · subst hcn
      rw [roots, List.headD_nil, if_neg (by simp)] at hstep
      by_cases hrn : r = .nil
      · subst hrn
        refine ⟨t1, l1, .cons m w .nil .nil, _, ?_, R1, hs1, ⟨rfl, trivial, trivial⟩, ⟨?_, by simp [ids]⟩, hpar1, fun _ _ => rfl⟩
        · rw [hstep]; simp [roots, Forest.size, ids]
        · intro z hz
          simp only [ids, List.append_nil, List.mem_singleton] at hz
          subst hz
          exact ⟨hm, hm0⟩
      obtain ⟨t2, l2, K, Y', e2, R2, hs2, al, new, hpar2, hY'⟩ := hr (A ++ [i]) t1 _ l1 d dp y yp X _ rest fuel R1 hs1 hdE ha
        hg3 n4 hy hyr hkr hsubr hnr hpyp (Or.inl rfl)
      have hE2 : appendUnder d K (appendUnder d (.cons m w .nil .nil) E) = appendUnder d (.cons m w .nil K) E := by
        rw [appendUnder_twice (by simp [ids, hmd]) R.ndf]; rfl
      rw [hE2] at R2 hs2
      refine ⟨t2, l2, .cons m w .nil K, Y', ?_, R2, hs2, ⟨rfl, trivial, al⟩, ⟨?_, ?_⟩,
        fun p hp => (hpar2 p hp).trans (hpar1 p hp), ?_⟩
      · rw [hstep]; exact e2
      · intro z hz
        simp only [ids, List.nil_append, List.mem_cons] at hz
        rcases hz with rfl | hz
        · exact ⟨hm, hm0⟩
        · exact ⟨(hnew1 z (new.1 z hz).1).2, (new.1 z hz).2⟩
      · simp only [ids, List.nil_append, List.nodup_cons]
        exact ⟨fun w => (hnew1 m (new.1 m w).1).1 rfl, new.2⟩
      · intro _ hll
        apply hY' hrn
        cases r with
        | nil => exact absurd rfl hrn
        | cons a b c' d' => exact hll
    · have hhd : (roots c).headD 0 ≠ 0 := by
        cases c with
        | nil => exact absurd rfl hcn
        | cons a b c' d' =>
          rw [roots, List.headD_cons]
          rintro rfl
          exact S.hung.zero (by
            have := (hsub 0 (by simp [ids])).1
            simp [ids, this])
      rw [if_pos hhd] at hstep
      obtain ⟨t2, l2, C, Y2, e2, R2, hs2, alc, newc, hpar2, hY2⟩ := hc [] t1 _ l1 m d i y ((⟨dp, d⟩, ⟨yp, y⟩) :: X) _
        ((roots r).map (It.mk y) ++ rest) (fuel + r.size) R1 hs1 hmE ham hg2 n3 (Or.inr hik) n1 hki hsubc hnc hpy (Or.inl rfl)
      rw [appendUnder_deep hm hmd] at R2 hs2
      have hCE : ∀ z ∈ ids C, z ≠ m ∧ z ∉ ids E ∧ z ≠ 0 := fun z hz =>
        ⟨(hnew1 z (newc.1 z hz).1).1, (hnew1 z (newc.1 z hz).1).2, (newc.1 z hz).2⟩
      by_cases hrn : r = .nil
      · subst hrn
        refine ⟨t2, l2, .cons m w C .nil, Y2, ?_, R2, hs2, ⟨rfl, alc, trivial⟩, ⟨?_, ?_⟩,
          fun p hp => (hpar2 p hp).trans (hpar1 p hp), ?_⟩
        · rw [hstep, e2]
          simp [roots, Forest.size, ids]
        · intro z hz
          simp only [ids, List.append_nil, List.mem_cons] at hz
          rcases hz with rfl | hz
          · exact ⟨hm, hm0⟩
          · exact (hCE z hz).2
        · simp only [ids, List.append_nil, List.nodup_cons]
          exact ⟨fun w => (hCE m w).1 rfl, newc.2⟩
        · intro _ hll
          exact absurd hll hcn
      · have hY2' := hY2 hcn (hg1.resolve_left hrn)
        have hdE2 : d ∈ ids (appendUnder d (.cons m w C .nil) E) := by
          rw [(ids_appendUnder R.ndf hd).mem_iff]; simp [hd]
        obtain ⟨t3, l3, K, Y3, e3, R3, hs3, al, new, hpar3, hY3⟩ := hr (A ++ [i]) t2 _ l2 d dp y yp X Y2 rest fuel R2 hs2 hdE2
          ha hg3 n4 hy hyr hkr hsubr hnr ((hpar2 y hysrc).trans hpyp) (Or.inr ⟨_, hY2', hyi.symm⟩)
        have hdC : d ∉ ids (Forest.cons m w C .nil) := by
          simp only [ids, List.append_nil, List.mem_cons, not_or]
          exact ⟨hmd, fun w => (hCE d w).2.1 hd⟩
        have hE3 : appendUnder d K (appendUnder d (.cons m w C .nil) E) = appendUnder d (.cons m w C K) E := by
          rw [appendUnder_twice hdC R.ndf]; rfl
        rw [hE3] at R3 hs3
        have hKE : ∀ z ∈ ids K, z ≠ m ∧ z ∉ ids C ∧ z ∉ ids E ∧ z ≠ 0 := by
          intro z hz
          obtain ⟨h1, h2⟩ := new.1 z hz
          rw [(ids_appendUnder R.ndf hd).mem_iff] at h1
          simp only [ids, List.append_nil, List.mem_append, List.mem_cons, not_or] at h1
          exact ⟨h1.1.1, h1.1.2, h1.2, h2⟩
        refine ⟨t3, l3, .cons m w C K, Y3, ?_, R3, hs3, ⟨rfl, alc, al⟩, ⟨?_, ?_⟩,
          fun p hp => ((hpar3 p hp).trans (hpar2 p hp)).trans (hpar1 p hp), ?_⟩
        · rw [hstep, e2, e3]
        · intro z hz
          simp only [ids, List.mem_append, List.mem_cons] at hz
          rcases hz with rfl | hz | hz
          · exact ⟨hm, hm0⟩
          · exact (hCE z hz).2
          · exact (hKE z hz).2.2
        · simp only [ids, List.nodup_cons, List.mem_append, not_or, List.nodup_append]
          exact ⟨⟨fun w => (hCE m w).1 rfl, fun w => (hKE m w).1 rfl⟩, newc.2, new.2,
            fun a ha b hb e => (hKE b hb).2.1 (e ▸ ha)⟩
        · intro _ hll
          apply hY3 hrn
          cases r with
          | nil => exact absurd rfl hrn
          | cons a b c' d' => exact hll

/-- Copying a gentle subtree to a place outside of it. -/
theorem copy_rep {s : Option (T α)} {t : T α} {f l} (R : Rep t f .nil l) {q x v k} (hs : SrcOk s f q x v k) (hg : gentle k)
    {p pos} (hp : IsPos f p pos) (ha : Apart s p x k) (fuel : Nat) (hf : k.size ≤ fuel) :
    ∃ t' l' K, copy s fuel t ⟨p, pos⟩ ⟨q, x⟩ = some (t', ⟨p, fresh f⟩) ∧
      Rep t' (Forest.insert p pos (fresh f) v K f) .nil l' ∧ alike K k ∧
      (∀ z ∈ fresh f :: ids K, z ∉ ids f) ∧ SrcOk s (Forest.insert p pos (fresh f) v K f) q x v k := by
  have S := hs.src R
  have hx0 : x ≠ 0 := by rintro rfl; exact S.hung.zero (by simp [ids])
  have hxs : x ∈ ids (Forest.cons x v k .nil) := by simp [ids]
  have hder : (⟨q, x⟩ : It).deref (s.getD t) = some v := by
    unfold It.deref T.rd
    dsimp only
    rw [if_neg hx0, if_pos (S.hung.lt x hxs), S.val (x, v) (by simp [nodes])]
  obtain ⟨t1, l1, e1, R1, _, hm0, hm⟩ := insert_rep R hp v
  have hs1 : SrcOk s (Forest.insert p pos (fresh f) v .nil f) q x v k := hs.insert R.ndf R.f0 hp hm hm0 ha
  have S1 := hs1.src R1
  obtain ⟨A, B, c1, c2, c3, c4, c5, c6, hperm⟩ := insert_spec (v := v) (k := .nil) R.ndf R.f0 hp hm hm0 (by simp [ids])
  have hids : ∀ z, z ∈ ids (Forest.insert p pos (fresh f) v .nil f) ↔ z = fresh f ∨ z ∈ ids f := by
    intro z
    have := (hperm.map Prod.fst).mem_iff (a := z)
    rw [← ids_eq] at this
    rw [this]
    simp [nodes, ← ids_eq]
  generalize hM : fresh f = m at *
  have ham : Apart s m x k := by
    intro hn
    subst hn
    have hxE := children_sub f q x hs.2.2
    have hkE : ∀ z ∈ ids k, z ∈ ids f := by
      intro z hz
      have := (nodes_erase R.ndf hs.1).map Prod.fst
      rw [← ids_eq] at this
      rw [this.mem_iff]
      simp [← ids_eq, hz]
    exact ⟨by rintro rfl; exact hm hxE, fun w => hm (hkE m w)⟩
  have hc := nodup_cons S.hung.nd
  obtain ⟨t2, l2, K, Y', e2, R2, hs2, al, new, _, _⟩ := copyLoop_spec k [] t1 _ l1 m p x q [] _ [] (fuel - k.size) R1 hs1
    ((hids m).mpr (Or.inl rfl)) ham hg hc.2.2.1 (Or.inl rfl) hc.1 kidsOf_self
    (fun p hp => ⟨hp, kidsOf_left S.hung.nd hp⟩) (fun _ h => h) S1.par (Or.inl rfl)
  rw [appendUnder_insert hm] at R2 hs2
  refine ⟨t2, l2, K, ?_, R2, al, ?_, hs2⟩
  · unfold copy
    rw [hder, Option.bind_some, e1, Option.bind_some]
    dsimp only
    rw [pushChildren_spec S1.hung hxs, Option.bind_some, kidsOf_self]
    rw [Nat.sub_add_cancel hf] at e2
    rw [e2, copyLoop]
    rfl
  · intro z hz
    rcases List.mem_cons.mp hz with rfl | hz
    · exact hm
    · intro w
      exact (new.1 z hz).1 ((hids z).mpr (Or.inr w))

end Verif.Proof.Tree
