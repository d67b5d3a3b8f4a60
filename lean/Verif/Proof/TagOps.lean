import Verif.Proof.Tags
import Verif.Proof.TagLink
import Verif.Proof.TreeOps

/-! The tag tree represents a forest: insertion and erasure. -/
namespace Verif.Proof.TagTree
open Verif.Spec Verif.Spec.Forest Verif.Spec.Tags Verif.Model.TagTree
variable {α : Type}

/-- The tags of one node. -/
structure Tg [Inhabited α] (t : T α) (i : Nat) (v : α) (e : Nat) : Prop where
  val : t.val i = v
  head : t.head i = 0
  tail : t.tail i = e
  ehead : e ≠ 0 → t.head e = i
  etail : e ≠ 0 → t.tail e = 0
  eval : e ≠ 0 → t.val e = default

/-- The tree shows the forest `f`; `l` are the free nodes, `d` the lost ones. -/
structure Rep [Inhabited α] (t : T α) (f : TF α) (l d : List Nat) : Prop where
  lk : Lk t (names f) l d
  tg : ∀ n ∈ nodes f, Tg t n.1 n.2.1 n.2.2
  ok : wf f

section
variable [Inhabited α] {t : T α} {f : TF α} {l d : List Nat}

theorem Rep.nd (R : Rep t f l d) : (ids f).Nodup := ids_nodup R.ok R.lk.ndw
theorem Rep.mem (R : Rep t f l d) {i} (h : i ∈ ids f) : i ∈ names f := (mem_names R.ok).mpr (Or.inl h)
theorem Rep.zero (R : Rep t f l d) : 0 ∉ ids f := fun h => R.lk.w0 (R.mem h) rfl
theorem Rep.mem_end (R : Rep t f l d) {i} {x : α × Nat} (h : (i, x) ∈ nodes f) (hx : x.2 ≠ 0) : x.2 ∈ names f := by
  refine (mem_names R.ok).mpr (Or.inr ?_)
  unfold ends
  exact List.mem_filter.mpr ⟨List.mem_map.mpr ⟨(i, x), h, rfl⟩, by simpa using hx⟩

theorem mem_ids {i} {x : α × Nat} (h : (i, x) ∈ nodes f) : i ∈ ids f := by
  rw [ids_eq]; exact List.mem_map.mpr ⟨_, h, rfl⟩

theorem Tg.congr {i v e} {t' : T α} (h : Tg t i v e) (hi : t'.val i = t.val i ∧ t'.head i = t.head i ∧ t'.tail i = t.tail i)
    (he : e ≠ 0 → t'.val e = t.val e ∧ t'.head e = t.head e ∧ t'.tail e = t.tail e) : Tg t' i v e :=
  ⟨hi.1.trans h.val, hi.2.1.trans h.head, hi.2.2.trans h.tail, fun h0 => (he h0).2.1.trans (h.ehead h0),
    fun h0 => (he h0).2.2.trans (h.etail h0), fun h0 => (he h0).1.trans (h.eval h0)⟩
end

theorem rep_empty [Inhabited α] : Rep (T.empty : T α) .nil [] [] := ⟨lk_empty, by simp [nodes], trivial⟩

theorem smallest_eq {l : List Nat} {n : Nat} (hn : n ≠ 0) (h : n ∉ l) (hm : ∀ m, 0 < m → m < n → m ∈ l) :
    n = smallest l := by
  have key : ∀ l : List Nat, ∃ f : Forest Unit, ids f = l := by
    intro l
    induction l with
    | nil => exact ⟨.nil, rfl⟩
    | cons a l ih => obtain ⟨f, e⟩ := ih; exact ⟨.cons a () .nil f, by simp [ids, e]⟩
  obtain ⟨f, e⟩ := key l
  subst e
  exact Verif.Proof.Tree.fresh_eq hn h hm

theorem isPos_of {f : TF α} {p pos} (h : Tags.IsPos f p pos) : Forest.IsPos f p pos :=
  ⟨h.1.imp id And.left, h.2⟩

/-- A list is cut in one way before a given element. -/
theorem cut_unique : ∀ {A B A' B' : List Nat}, A ++ B = A' ++ B' → hd B 0 = hd B' 0 → (0 :: (A ++ B)).Nodup →
    A = A' ∧ B = B' := by
  intro A
  induction A with
  | nil =>
    intro B A' B' h1 h2 h3
    cases A' with
    | nil => exact ⟨rfl, h1⟩
    | cons a A' =>
      exfalso
      rw [List.nil_append] at h1 h3
      subst h1
      change a = hd B' 0 at h2
      rcases hd_mem (B := B') (y := 0) with h | h
      · rw [h] at h2; subst h2; simp at h3
      · rw [h2] at h3
        simp only [List.cons_append, List.nodup_cons] at h3
        exact h3.2.1 (List.mem_append_right _ h)
  | cons a A ih =>
    intro B A' B' h1 h2 h3
    cases A' with
    | nil =>
      exfalso
      rw [List.nil_append] at h1
      subst h1
      change hd B 0 = a at h2
      rcases hd_mem (B := B) (y := 0) with h | h
      · rw [h] at h2; subst h2; simp at h3
      · rw [← h2] at h3
        simp only [List.cons_append, List.nodup_cons] at h3
        exact h3.2.1 (List.mem_append_right _ h)
    | cons a' A' =>
      simp only [List.cons_append, List.cons.injEq] at h1
      obtain ⟨rfl, h1⟩ := h1
      have h3' : (0 :: (A ++ B)).Nodup := by
        simp only [List.cons_append, List.nodup_cons, List.mem_cons, not_or] at h3 ⊢
        exact ⟨h3.1.2, h3.2.2⟩
      obtain ⟨rfl, rfl⟩ := ih h1 h2 h3'
      exact ⟨rfl, rfl⟩

/-- Insertion. -/
theorem insert_rep [Inhabited α] {t : T α} {f l} (R : Rep t f l []) {p pos} (hp : Tags.IsPos f p pos) (single : α → Bool)
    (v : α) :
    ∃ t' l', Verif.Model.TagTree.insert single t (place f p pos) v = some (t', smallest (names f)) ∧
      Rep t' (Tags.step single f (.insert p pos v)) l' [] := by
  obtain ⟨t1, n, l1, e1, L1, hn0, hnw, hmin, hv1, ht1⟩ := allocate_spec R.lk v
  have hns : n = smallest (names f) := smallest_eq hn0 hnw hmin
  have hni : n ∉ ids f := fun h => hnw (R.mem h)
  have hb : ∃ A B, names f = A ++ B ∧ hd B 0 = place f p pos ∧ ∀ x : α × Nat,
      names (Forest.insert p pos n x .nil f) = A ++ tags n x .nil ++ B := by
    obtain ⟨A, B, a1, a2, _⟩ := names_insert (n := n) (x := (v, 0)) (k := .nil) R.ok R.nd R.zero hp
    refine ⟨A, B, a1, a2, ?_⟩
    intro x
    obtain ⟨A', B', b1, b2, b3⟩ := names_insert (n := n) (x := x) (k := .nil) R.ok R.nd R.zero hp
    obtain ⟨rfl, rfl⟩ := cut_unique (a1.symm.trans b1) (a2.trans b2.symm) (by
      have := R.lk.nd
      rw [← a1]
      exact List.nodup_cons.mpr ⟨fun h => R.lk.w0 h rfl, R.lk.ndw⟩)
    exact b3
  obtain ⟨A, B, a1, a2, a3⟩ := hb
  rw [a1] at L1
  obtain ⟨t2, e2, L2, hv2, hh2, ht2⟩ := link_spec L1
  rw [a2] at e2
  have hnodes : ∀ x : α × Nat, (nodes (Forest.insert p pos n x .nil f)).Perm ((n, x) :: nodes f) := fun x => by
    obtain ⟨_, _, _, _, _, _, _, _, h⟩ := insert_spec (v := x) (k := .nil) R.nd R.zero (isPos_of hp) hni hn0 (by simp [ids])
    simpa [nodes] using h
  have frame2 : ∀ i ∈ names f, t2.val i = t.val i ∧ t2.head i = t.head i ∧ t2.tail i = t.tail i := by
    intro i hi
    have hin : i ≠ n := by rintro rfl; exact hnw hi
    rw [hv2, hh2, ht2, hv1, upd_ne _ _ hin, upd_ne _ _ hin, upd_ne _ _ hin]
    exact ⟨rfl, ht1 i hi⟩
  rw [Verif.Model.TagTree.insert, e1, Option.bind_some]
  dsimp only
  rw [e2, Option.bind_some]
  rw [Tags.step]
  rw [← hns]
  by_cases hs : single v = true
  · rw [if_pos hs, if_pos hs]
    refine ⟨t2, l1, rfl, ?_, ?_, wf_insert R.ok R.nd R.zero hp (fun _ => rfl) trivial⟩
    · rw [a3]
      simpa [tags] using L2
    · intro m hm
      rcases List.mem_cons.mp ((hnodes _).mem_iff.mp hm) with rfl | hm
      · refine ⟨?_, ?_, ?_, by simp, by simp, by simp⟩
        · rw [hv2, hv1]; exact upd_self _ _ _
        · rw [hh2]; exact upd_self _ _ _
        · rw [ht2]; exact upd_self _ _ _
      · obtain ⟨i, x⟩ := m
        exact (R.tg _ hm).congr (frame2 i (R.mem (mem_ids hm))) (fun hx => frame2 _ (R.mem_end hm hx))
  · rw [if_neg hs, if_neg hs]
    obtain ⟨t3, e, l3, e3, L3, he0, hew, hemin, hv3, ht3⟩ := allocate_spec L2 (default : α)
    rw [show A ++ n :: B = (A ++ [n]) ++ B by simp] at L3
    obtain ⟨t4, e4, L4, hv4, hh4, ht4⟩ := link_spec L3
    rw [a2] at e4
    rw [e3, Option.bind_some]
    dsimp only
    rw [e4, Option.bind_some]
    have hel : e < t4.len := L4.w_lt (by simp)
    have hnl : n < t4.len := L4.w_lt (by simp)
    have hen : e ≠ n := by rintro rfl; exact hew (by simp)
    have hes : e = smallest (n :: names f) := by
      refine smallest_eq he0 ?_ ?_
      · rw [a1]; intro h; exact hew (by simp at h ⊢; tauto)
      · intro m h1 h2
        have := hemin m h1 h2
        rw [a1]; simp at this ⊢; tauto
    rw [T.setTail, if_pos hnl, Option.bind_some, T.setHead, if_pos (show e < T.len { t4 with tail := upd t4.tail n e } from hel),
      Option.bind_some]
    rw [← hes]
    have frame4 : ∀ i ∈ n :: names f, t4.val i = t2.val i ∧ t4.head i = t2.head i ∧ t4.tail i = t2.tail i := by
      intro i hi
      have hi' : i ∈ A ++ n :: B := by rw [a1] at hi; simp at hi ⊢; tauto
      have hie : i ≠ e := by rintro rfl; exact hew hi'
      rw [hv4, hh4, ht4, hv3, upd_ne _ _ hie, upd_ne _ _ hie, upd_ne _ _ hie]
      exact ⟨rfl, ht3 i hi'⟩
    refine ⟨_, l3, rfl, ⟨?_, ?_, ?_, ?_, ?_⟩, ?_, wf_insert R.ok R.nd R.zero hp (fun _ => rfl) trivial⟩
    · have := L4.nd
      rw [a3]; simpa [tags, he0, names] using this
    · have := L4.range
      rw [a3]
      intro i
      have := this i
      simpa [tags, he0, names] using this
    · exact L4.sorted
    · have := L4.main
      rw [a3]
      simpa [tags, he0, names] using this
    · refine L4.free.congr ?_ ?_
      · intro i hi
        apply upd_ne
        rcases List.mem_cons.mp hi with rfl | hi
        · exact Ne.symm hn0
        · rintro rfl; exact L4.wl (i := i) (by simp) hi
      · intro i hi
        apply upd_ne
        rcases List.mem_cons.mp hi with rfl | hi
        · exact Ne.symm he0
        · rintro rfl; exact L4.wl (i := i) (by simp) hi
    · intro m hm
      rcases List.mem_cons.mp ((hnodes _).mem_iff.mp hm) with rfl | hm
      · obtain ⟨g1, g2, g3⟩ := frame4 n (by simp)
        refine ⟨?_, ?_, ?_, fun _ => ?_, fun _ => ?_, fun _ => ?_⟩
        · show t4.val n = v
          rw [g1, hv2, hv1]; exact upd_self _ _ _
        · show upd t4.head e n n = 0
          rw [upd_ne _ _ (Ne.symm hen), g2, hh2]; exact upd_self _ _ _
        · exact upd_self _ _ _
        · exact upd_self _ _ _
        · show upd t4.tail n e e = 0
          rw [upd_ne _ _ hen, ht4]; exact upd_self _ _ _
        · show t4.val e = default
          rw [hv4, hv3]; exact upd_self _ _ _
      · obtain ⟨i, x⟩ := m
        have key : ∀ j ∈ names f, t4.val j = t.val j ∧ upd t4.head e n j = t.head j ∧ upd t4.tail n e j = t.tail j := by
          intro j hj
          have hjn : j ≠ n := by rintro rfl; exact hnw hj
          have hje : j ≠ e := by rintro rfl; rw [a1] at hj; exact hew (by simp at hj ⊢; tauto)
          obtain ⟨g1, g2, g3⟩ := frame4 j (by simp [hj])
          obtain ⟨f1, f2, f3⟩ := frame2 j hj
          rw [upd_ne _ _ hjn, upd_ne _ _ hje, g1, g2, g3]
          exact ⟨f1, f2, f3⟩
        exact (R.tg _ hm).congr (key i (R.mem (mem_ids hm))) (fun hx => key _ (R.mem_end hm hx))

theorem eraseLoop_spec {A B : List Nat} : ∀ (C : List Nat) (t : T α) (l : List Nat) (fuel : Nat),
    Lk t (A ++ C ++ B) l [] → C.length ≤ fuel →
    ∃ t' l', eraseLoop (lst 0 A) fuel t (lst 0 (A ++ C)) = some t' ∧ Lk t' (A ++ B) l' [] ∧ t'.val = t.val ∧
      ∀ i ∈ A ++ B, t'.head i = t.head i ∧ t'.tail i = t.tail i := by
  intro C
  induction C using List.reverseRecOn with
  | nil =>
    intro t l fuel L _
    rw [eraseLoop.eq_def]
    dsimp only
    rw [List.append_nil, if_pos rfl]
    exact ⟨t, l, rfl, by simpa using L, rfl, fun _ _ => ⟨rfl, rfl⟩⟩
  | append_singleton C c ih =>
    intro t l fuel L hf
    cases fuel with
    | zero => simp at hf
    | succ fuel =>
      have hc : lst 0 (A ++ (C ++ [c])) = c := by rw [← List.append_assoc, lst_append]; rfl
      have hcA : c ≠ lst 0 A := by
        intro e
        rcases List.mem_cons.mp (lst_mem 0 A) with h | h
        · exact L.w0 (i := c) (by simp) (e.trans h)
        · rw [← e] at h
          have := L.ndw
          simp only [List.append_assoc] at this
          exact (List.nodup_append.mp this).2.2 c h c (by simp) rfl
      rw [show A ++ (C ++ [c]) ++ B = (A ++ C) ++ c :: B by simp] at L
      obtain ⟨t1, e1, L1, v1, h1, tl1⟩ := unlink_spec L
      obtain ⟨t2, l2, e2, L2, v2, len2, ht2⟩ := free_spec L1
      obtain ⟨t3, l3, e3, L3, v3, ht3⟩ := ih t2 l2 fuel L2 (by simp at hf; omega)
      have hp : t.prev c = lst 0 (A ++ C) := by
        have := L.main
        exact (seg_mid.mp this).1.prev
      rw [hc, eraseLoop, if_neg hcA, T.rd, if_pos (L.w_lt (by simp)), Option.bind_some, e1, Option.bind_some, e2,
        Option.bind_some, hp]
      refine ⟨t3, l3, e3, L3, by rw [v3, v2, v1], ?_⟩
      intro i hi
      have hic : i ≠ c := by
        rintro rfl
        have := L1.wd (i := i) (by simp at hi ⊢; tauto)
        simp at this
      obtain ⟨a1, a2⟩ := ht3 i hi
      obtain ⟨b1, b2⟩ := ht2 i (by simp at hi ⊢; tauto)
      rw [a1, a2, b1, b2, h1, tl1, upd_ne _ _ hic, upd_ne _ _ hic]
      exact ⟨rfl, rfl⟩

section
variable [Inhabited α] {t : T α} {f : TF α} {l : List Nat}

theorem find_node {d} (R : Rep t f l d) {x y k} (h : find f x = some (y, k)) : (x, y) ∈ nodes f :=
  (nodes_erase R.nd h).mem_iff.mpr (by simp)

/-- The last tag of a node. -/
theorem lastTag_rep {d} (R : Rep t f l d) {x y k} (h : find f x = some (y, k)) (z : Nat) :
    lastTag t x = some (lst z (tags x y k)) := by
  have hm := find_node R h
  rw [lastTag, T.rd, if_pos (R.lk.w_lt (R.mem (mem_ids hm))), (R.tg _ hm).tail]
  rw [tags]
  by_cases hy : y.2 = 0
  · rw [if_pos hy]
    simp [hy, lst]
  · rw [if_neg hy]
    simp only [Option.map_some, if_neg hy, lst]
    rw [lst_append]; rfl

/-- Erasure. -/
theorem erase_rep (R : Rep t f l []) {x} (hx : x ∈ ids f) :
    ∃ t' l' e, lastTag t x = some e ∧ Verif.Model.TagTree.erase t x = some (t', t.next e) ∧ Rep t' (Forest.erase x f) l' [] := by
  obtain ⟨y, k, hf⟩ := find_some hx
  obtain ⟨A, B, e1, e2⟩ := names_erase R.ok R.nd hf
  have L := R.lk
  rw [e1] at L
  have hlast := lastTag_rep R hf (lst 0 A)
  rw [← lst_append] at hlast
  have hnx : t.prev x = lst 0 A := by
    have := L.main
    rw [tags, List.append_assoc, List.cons_append] at this
    exact (seg_mid.mp this).1.prev
  have hlen : (tags x y k).length ≤ t.len := by
    have h1 : (tags x y k).Nodup := (List.nodup_append.mp (List.nodup_append.mp L.ndw).1).2.1
    have h2 : ∀ a ∈ tags x y k, a ∈ List.range t.len := fun a ha => List.mem_range.mpr (L.w_lt (by simp [ha]))
    simpa using (List.subperm_of_subset h1 h2).length_le
  obtain ⟨t', l', e3, L', hv, hht⟩ := eraseLoop_spec (tags x y k) t l t.len L hlen
  have hlm : lst 0 (A ++ tags x y k) < t.len := by
    rcases List.mem_cons.mp (lst_mem 0 (A ++ tags x y k)) with h | h
    · rw [h]; exact L.len
    · exact L.w_lt (List.mem_append_left _ h)
  refine ⟨t', l', _, hlast, ?_, ?_, ?_, wf_erase R.ok x⟩
  · rw [Verif.Model.TagTree.erase, T.rd, if_pos (R.lk.w_lt (R.mem hx)), Option.bind_some, hlast, Option.bind_some, T.rd,
      if_pos hlm, Option.bind_some, hnx, e3]
    rfl
  · rw [e2]; exact L'
  · intro m hm
    have hm' : m ∈ nodes f := (nodes_erase R.nd hf).mem_iff.mpr (by simp [hm])
    have R' : ∀ i ∈ names (Forest.erase x f), t'.val i = t.val i ∧ t'.head i = t.head i ∧ t'.tail i = t.tail i := by
      intro i hi
      rw [e2] at hi
      rw [hv]
      exact ⟨rfl, hht i hi⟩
    obtain ⟨i, z⟩ := m
    have w := wf_erase R.ok x
    refine (R.tg _ hm').congr (R' i ((mem_names w).mpr (Or.inl (mem_ids hm)))) (fun hz => R' _ ?_)
    refine (mem_names w).mpr (Or.inr ?_)
    exact List.mem_filter.mpr ⟨List.mem_map.mpr ⟨(i, z), hm, rfl⟩, by simpa using hz⟩

end
end Verif.Proof.TagTree
