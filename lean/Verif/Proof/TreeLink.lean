import Verif.Model.Tree
import Mathlib.Data.List.Basic
import Batteries.Tactic.Init

/-! Sibling lists of the tree container: `link` and `unlink`. -/
namespace Verif.Proof.Tree
open Verif.Model.Tree
variable {α : Type}

theorem split_mid {β : Type} {A B A' B' : List β} {n x : β} (h : A' ++ x :: B' = A ++ n :: B) :
    (∃ C, A = A' ++ x :: C ∧ B' = C ++ n :: B) ∨ (A' = A ∧ x = n ∧ B' = B) ∨
    (∃ C, B = C ++ x :: B' ∧ A' = A ++ n :: C) := by
  rcases List.append_eq_append_iff.mp h with ⟨C, e1, e2⟩ | ⟨C, e1, e2⟩
  · cases C with
    | nil =>
      simp only [List.nil_append, List.cons.injEq] at e2
      exact Or.inr (Or.inl ⟨by simpa using e1.symm, e2.1, e2.2⟩)
    | cons c C =>
      simp only [List.cons_append, List.cons.injEq] at e2
      exact Or.inl ⟨C, by rw [e1, e2.1], e2.2⟩
  · cases C with
    | nil =>
      simp only [List.nil_append, List.cons.injEq] at e2
      exact Or.inr (Or.inl ⟨by simpa using e1, e2.1.symm, e2.2.symm⟩)
    | cons c C =>
      simp only [List.cons_append, List.cons.injEq] at e2
      exact Or.inr (Or.inr ⟨C, e2.2, by rw [e1, e2.1]⟩)

/-- The children of `p` are linked in the order `l`. -/
structure Chain (t : T α) (p : Nat) (l : List Nat) : Prop where
  head : t.child p = l.headD 0
  par : ∀ x ∈ l, t.parent x = p
  nx : ∀ A x B, l = A ++ x :: B → t.next x = B.headD 0
  pv : ∀ A x B, l = A ++ x :: B → t.prev x = if A = [] then B.getLastD x else A.getLastD 0

theorem Chain.frame {t t' : T α} {p l} (C : Chain t p l) (hc : t'.child p = t.child p)
    (h : ∀ x ∈ l, t'.parent x = t.parent x ∧ t'.next x = t.next x ∧ t'.prev x = t.prev x) : Chain t' p l := by
  refine ⟨hc.trans C.head, fun x hx => (h x hx).1.trans (C.par x hx), ?_, ?_⟩
  · intro A x B e
    rw [(h x (by rw [e]; simp)).2.1, C.nx A x B e]
  · intro A x B e
    rw [(h x (by rw [e]; simp)).2.2, C.pv A x B e]

/-- What `link` does to the tree. -/
structure Linked (t t' : T α) (p : Nat) (A B : List Nat) (n : Nat) : Prop where
  len : t'.len = t.len
  val : t'.val = t.val
  parent : t'.parent = upd t.parent n p
  child : t'.child = if A = [] then upd t.child p n else t.child
  next : ∀ x, t'.next x = if x = n then B.headD 0 else if A ≠ [] ∧ x = A.getLastD 0 then n else t.next x
  prev : ∀ x, t'.prev x = if x = n then (if A = [] then B.getLastD n else A.getLastD 0)
    else if B ≠ [] ∧ x = B.headD 0 then n
    else if B = [] ∧ A ≠ [] ∧ x = A.headD 0 then n else t.prev x

theorem getLastD_concat {β : Type} (A : List β) (b d : β) : (A ++ [b]).getLastD d = b := by
  simp [List.getLastD_eq_getLast?]

theorem getLastD_cons_ne {β : Type} {A : List β} (h : A ≠ []) (d d' : β) : A.getLastD d = A.getLastD d' := by
  rcases List.eq_nil_or_concat A with rfl | ⟨A, b, rfl⟩
  · exact absurd rfl h
  · rw [List.concat_eq_append, getLastD_concat, getLastD_concat]

theorem getLastD_mem {β : Type} {A : List β} (h : A ≠ []) (d : β) : A.getLastD d ∈ A := by
  rcases List.eq_nil_or_concat A with rfl | ⟨A, b, rfl⟩
  · exact absurd rfl h
  · rw [List.concat_eq_append, getLastD_concat]; simp

theorem getLastD_append {β : Type} {A B : List β} (h : B ≠ []) (d : β) : (A ++ B).getLastD d = B.getLastD d := by
  rcases List.eq_nil_or_concat B with rfl | ⟨B, b, rfl⟩
  · exact absurd rfl h
  · rw [List.concat_eq_append, ← List.append_assoc, getLastD_concat, getLastD_concat]

theorem headD_mem {β : Type} {A : List β} (h : A ≠ []) (d : β) : A.headD d ∈ A := by
  cases A with
  | nil => exact absurd rfl h
  | cons a A => simp

theorem link_spec {t : T α} {p n : Nat} {A B : List Nat} (C : Chain t p (A ++ B)) (nd : (A ++ B).Nodup)
    (h0 : 0 ∉ A ++ B) (hn : n ∉ A ++ B) (hn0 : n ≠ 0) (hp : p < t.len) (hnl : n < t.len)
    (hl : ∀ x ∈ A ++ B, x < t.len) :
    ∃ t', link t p (B.headD 0) n = some t' ∧ Linked t t' p A B n := by
  unfold link linkBefore T.rd T.setChild T.setPrev T.setNext T.setParent
  rw [if_pos hp, Option.bind_some]
  rw [C.head]
  rcases List.eq_nil_or_concat A with rfl | ⟨A, b, rfl⟩
  · cases B with
    | nil =>
      simp only [List.nil_append, List.headD_nil, ne_eq, not_true_eq_false, if_false, Option.bind_some, if_true, hp,
        hnl]
      exact ⟨_, rfl, rfl, rfl, rfl, by simp, fun x => by simp [upd], fun x => by simp [upd]⟩
    | cons c B =>
      have hc0 : c ≠ 0 := fun w => h0 (by simp [w])
      have hcl : c < t.len := hl c (by simp)
      have hcn : c ≠ n := fun w => hn (by simp [w])
      have hpv := C.pv [] c B rfl
      rw [if_pos rfl] at hpv
      simp only [List.nil_append, List.headD_cons, ne_eq, hc0, not_false_eq_true, if_true, not_true_eq_false, if_false,
        Option.bind_some, hp, hnl, hcl]
      refine ⟨_, rfl, rfl, rfl, rfl, by simp, fun x => ?_, fun x => ?_⟩
      · simp [upd]
      · by_cases h1 : x = n
        · subst h1
          rw [if_pos rfl, if_pos rfl, List.getLastD_cons, ← hpv]
          simp [upd, hcn.symm]
        · by_cases h2 : x = c
          · subst h2; simp [upd, h1]
          · simp [upd, h1, h2]
  · rw [List.concat_eq_append] at *
    have hb0 : b ≠ 0 := fun w => h0 (by simp [w])
    have hbl : b < t.len := hl b (by simp)
    have hbn : b ≠ n := fun w => hn (by simp [w])
    have hAne : A ++ [b] ≠ [] := by simp
    have hhead : ∀ B, (A ++ [b] ++ B).headD 0 = (A ++ [b]).headD 0 := by intro B; cases A <;> simp
    have hh := headD_mem hAne 0
    have hh0 : (A ++ [b]).headD 0 ≠ 0 := fun w => h0 (by rw [w] at hh; rw [List.mem_append]; exact Or.inl hh)
    have hhl : (A ++ [b]).headD 0 < t.len := hl _ (by rw [List.mem_append]; exact Or.inl hh)
    have hhn : (A ++ [b]).headD 0 ≠ n := fun w => hn (by rw [w] at hh; rw [List.mem_append]; exact Or.inl hh)
    cases B with
    | nil =>
      have hpv : t.prev ((A ++ [b]).headD 0) = b := by
        cases A with
        | nil => simpa using C.pv [] b [] rfl
        | cons a A =>
          have := C.pv [] a (A ++ [b]) (by simp)
          rw [if_pos rfl, getLastD_concat] at this
          simpa using this
      rw [hhead]
      simp only [List.headD_nil, ne_eq, not_true_eq_false, if_false, hh0, not_false_eq_true, if_true, hhl,
        Option.bind_some, hpv, hb0, hbl, hnl]
      refine ⟨_, rfl, rfl, rfl, rfl, by simp, fun x => ?_, fun x => ?_⟩
      · rw [getLastD_concat]; simp [upd]
      · rw [getLastD_concat]
        generalize (A ++ [b]).headD 0 = y at *
        by_cases h1 : x = n
        · subst h1; simp [upd, hhn.symm]
        · simp [upd, h1]
    | cons c B =>
      have hc0 : c ≠ 0 := fun w => h0 (by simp [w])
      have hcl : c < t.len := hl c (by simp)
      have hcn : c ≠ n := fun w => hn (by simp [w])
      have hpv := C.pv (A ++ [b]) c B rfl
      rw [if_neg hAne, getLastD_concat] at hpv
      have hne : (A ++ [b]).headD 0 ≠ c := by
        rintro e
        rw [e] at hh
        exact (List.nodup_append.mp nd).2.2 c hh c (by simp) rfl
      rw [hhead]
      simp only [List.headD_cons, ne_eq, hc0, not_false_eq_true, if_true, hne, hcl, Option.bind_some, hpv, hb0,
        if_false, hbl, hnl]
      refine ⟨_, rfl, rfl, rfl, rfl, by simp, fun x => ?_, fun x => ?_⟩
      · rw [getLastD_concat]; simp [upd]
      · rw [getLastD_concat]
        by_cases h1 : x = n
        · subst h1; simp [upd, hcn.symm]
        · by_cases h2 : x = c
          · subst h2; simp [upd, h1]
          · simp [upd, h1, h2]

theorem Linked.chain {t t' : T α} {p n A B} (L : Linked t t' p A B n) (C : Chain t p (A ++ B)) (nd : (A ++ B).Nodup)
    (hn : n ∉ A ++ B) : Chain t' p (A ++ n :: B) := by
  have ndA := (List.nodup_append.mp nd).1
  have ndB := (List.nodup_append.mp nd).2.1
  have disj := (List.nodup_append.mp nd).2.2
  refine ⟨?_, ?_, ?_, ?_⟩
  · rw [L.child]
    by_cases h : A = []
    · subst h; simp [upd]
    · rw [if_neg h, C.head]
      cases A with
      | nil => exact absurd rfl h
      | cons a A => rfl
  · intro x hx
    rw [L.parent]
    unfold upd
    by_cases h : x = n
    · rw [if_pos h]
    · rw [if_neg h]
      apply C.par
      simp only [List.mem_append, List.mem_cons] at hx ⊢
      rcases hx with w | w | w
      · exact Or.inl w
      · exact absurd w h
      · exact Or.inr w
  · intro A' x B' e
    rw [L.next]
    rcases split_mid e.symm with ⟨D, rfl, rfl⟩ | ⟨rfl, rfl, rfl⟩ | ⟨D, rfl, rfl⟩
    · have hxn : x ≠ n := fun w => hn (by simp [w])
      rw [if_neg hxn]
      by_cases hD : D = []
      · subst hD
        rw [if_pos ⟨by simp, by rw [getLastD_concat]⟩]; rfl
      · rw [if_neg, C.nx A' x (D ++ B) (by simp)]
        · cases D with
          | nil => exact absurd rfl hD
          | cons d D => rfl
        · rintro ⟨_, w⟩
          have : A' ++ x :: D = (A' ++ [x]) ++ D := by simp
          rw [this, getLastD_append hD] at w
          have hm := getLastD_mem hD 0
          rw [← w] at hm
          rw [this] at ndA
          exact (List.nodup_append.mp ndA).2.2 x (by simp) x hm rfl
    · rw [if_pos rfl]
    · have hxn : x ≠ n := fun w => hn (by simp [w])
      rw [if_neg hxn, if_neg, C.nx (A ++ D) x B' (by simp)]
      rintro ⟨hA, w⟩
      have hm := getLastD_mem hA 0
      rw [← w] at hm
      exact disj x hm x (by simp) rfl
  · intro A' x B' e
    rw [L.prev]
    rcases split_mid e.symm with ⟨D, rfl, rfl⟩ | ⟨rfl, rfl, rfl⟩ | ⟨D, rfl, rfl⟩
    · have hxn : x ≠ n := fun w => hn (by simp [w])
      rw [if_neg hxn, if_neg]
      · by_cases hA' : A' = []
        · subst hA'
          by_cases hB : B = []
          · subst hB
            rw [if_pos ⟨rfl, by simp, by simp⟩, if_pos rfl, getLastD_concat]
          · rw [if_neg (by rintro ⟨w, _⟩; exact hB w), C.pv [] x (D ++ B) (by simp), if_pos rfl, if_pos rfl,
              getLastD_append hB, getLastD_append (by simp)]
            have : n :: B = [n] ++ B := rfl
            rw [this, getLastD_append hB]
        · rw [if_neg, C.pv A' x (D ++ B) (by simp), if_neg hA']
          · rw [if_neg hA']
          · rintro ⟨_, _, w⟩
            have hm := headD_mem hA' 0
            have : (A' ++ x :: D).headD 0 = A'.headD 0 := by
              cases A' with
              | nil => exact absurd rfl hA'
              | cons _ _ => rfl
            rw [this] at w
            rw [← w] at hm
            exact (List.nodup_append.mp ndA).2.2 x hm x (by simp) rfl
      · rintro ⟨hB, w⟩
        have hm := headD_mem hB 0
        rw [← w] at hm
        exact disj x (by simp) x hm rfl
    · rw [if_pos rfl]
    · have hxn : x ≠ n := fun w => hn (by simp [w])
      rw [if_neg hxn]
      rw [if_neg (by simp : A ++ n :: D ≠ [])]
      by_cases hD : D = []
      · subst hD
        rw [if_pos ⟨by simp, by simp⟩, getLastD_concat]
      · have hne : x ≠ (D ++ x :: B').headD 0 := by
          intro w
          have : (D ++ x :: B').headD 0 = D.headD 0 := by
            cases D with
            | nil => exact absurd rfl hD
            | cons _ _ => rfl
          rw [this] at w
          have hm := headD_mem hD 0
          rw [← w] at hm
          exact (List.nodup_append.mp ndB).2.2 x hm x (by simp) rfl
        rw [if_neg (fun w => hne w.2), if_neg (by rintro ⟨w, _⟩; simp at w),
          C.pv (A ++ D) x B' (by simp), if_neg (by simp [hD]), getLastD_append hD]
        have : A ++ n :: D = (A ++ [n]) ++ D := by simp
        rw [this, getLastD_append hD]

theorem Linked.frame {t t' : T α} {p n A B q l} (L : Linked t t' p A B n) (C : Chain t q l) (hq : q ≠ p)
    (hd : ∀ x ∈ l, x ≠ n ∧ x ∉ A ++ B) : Chain t' q l := by
  apply C.frame
  · rw [L.child]; split <;> simp [upd, hq]
  · intro x hx
    obtain ⟨h1, h2⟩ := hd x hx
    rw [List.mem_append, not_or] at h2
    refine ⟨by rw [L.parent]; simp [upd, h1], ?_, ?_⟩
    · rw [L.next, if_neg h1, if_neg]
      rintro ⟨w, e⟩
      exact h2.1 (e ▸ getLastD_mem w 0)
    · rw [L.prev, if_neg h1, if_neg, if_neg]
      · rintro ⟨_, w, e⟩; exact h2.1 (e ▸ headD_mem w 0)
      · rintro ⟨w, e⟩; exact h2.2 (e ▸ headD_mem w 0)

/-- What `unlink` does to the tree. -/
structure Unlinked (t t' : T α) (p : Nat) (A B : List Nat) (n : Nat) : Prop where
  len : t'.len = t.len
  val : t'.val = t.val
  parent : t'.parent = t.parent
  child : t'.child = if A = [] then upd t.child p (B.headD 0) else t.child
  next : ∀ x, t'.next x = if A ≠ [] ∧ x = A.getLastD 0 then B.headD 0 else t.next x
  prev : ∀ x, t'.prev x = if B ≠ [] ∧ x = B.headD 0 then t.prev n
    else if B = [] ∧ A ≠ [] ∧ x = A.headD 0 then A.getLastD 0 else t.prev x

theorem unlink_spec {t : T α} {p n : Nat} {A B : List Nat} (C : Chain t p (A ++ n :: B)) (nd : (A ++ n :: B).Nodup)
    (h0 : 0 ∉ A ++ n :: B) (hp : p < t.len) (hl : ∀ x ∈ A ++ n :: B, x < t.len) :
    ∃ t', unlink t n = some t' ∧ Unlinked t t' p A B n := by
  have hn0 : n ≠ 0 := fun w => h0 (by simp [w])
  have hnl : n < t.len := hl n (by simp)
  have hpar := C.par n (by simp)
  have hnx := C.nx A n B rfl
  have hpv := C.pv A n B rfl
  unfold unlink T.rd T.setChild T.setPrev T.setNext
  rw [if_neg hn0, if_pos hnl, Option.bind_some, hpar, if_pos hp, Option.bind_some, C.head]
  rcases List.eq_nil_or_concat A with rfl | ⟨A, b, rfl⟩
  · cases B with
    | nil =>
      simp only [List.headD_nil] at hnx
      simp only [List.nil_append, List.headD_cons, ne_eq, not_true_eq_false, if_false, Option.bind_some, hnl, if_true,
        hnx, hp]
      exact ⟨_, rfl, rfl, rfl, rfl, by simp, fun x => by simp, fun x => by simp⟩
    | cons c B =>
      have hc0 : c ≠ 0 := fun w => h0 (by simp [w])
      have hcl : c < t.len := hl c (by simp)
      have hcn : c ≠ n := by
        rintro rfl
        simp at nd
      simp only [List.headD_cons] at hnx
      simp only [List.nil_append, List.headD_cons, ne_eq, not_true_eq_false, if_false, Option.bind_some, hnl, if_true,
        hnx, hp, hc0, hcl]
      refine ⟨_, rfl, rfl, rfl, rfl, by simp, fun x => by simp, fun x => ?_⟩
      by_cases h : x = c
      · simp [upd, h, hcn.symm]
      · simp [upd, h]
  · rw [List.concat_eq_append] at *
    have hb0 : b ≠ 0 := fun w => h0 (by simp [w])
    have hbl : b < t.len := hl b (by simp)
    have hAne : A ++ [b] ≠ [] := by simp
    have hhead : ∀ B, (A ++ [b] ++ B).headD 0 = (A ++ [b]).headD 0 := by intro B; cases A <;> simp
    have hh := headD_mem hAne 0
    have hhl : (A ++ [b]).headD 0 < t.len := hl _ (by rw [List.mem_append]; exact Or.inl hh)
    have hne : (A ++ [b]).headD 0 ≠ n := by
      rintro e
      rw [e] at hh
      exact (List.nodup_append.mp nd).2.2 n hh n (by simp) rfl
    rw [if_neg hAne, getLastD_concat] at hpv
    rw [hhead]
    cases B with
    | nil =>
      simp only [List.headD_nil] at hnx
      simp only [ne_eq, hne, not_false_eq_true, if_true, hnl, Option.bind_some, hpv, hnx, hb0, if_false, hbl, hhl]
      refine ⟨_, rfl, rfl, rfl, rfl, by simp, fun x => ?_, fun x => ?_⟩
      · rw [getLastD_concat]; simp [upd]
      · rw [getLastD_concat]; simp [upd]
    | cons c B =>
      have hc0 : c ≠ 0 := fun w => h0 (by simp [w])
      have hcl : c < t.len := hl c (by simp)
      simp only [List.headD_cons] at hnx
      simp only [ne_eq, hne, not_false_eq_true, if_true, hnl, Option.bind_some, hpv, hnx, hb0, if_false, hbl, hc0, hcl]
      refine ⟨_, rfl, rfl, rfl, rfl, by simp, fun x => ?_, fun x => ?_⟩
      · rw [getLastD_concat]; simp [upd]
      · by_cases h : x = c
        · simp [upd, h, hpv]
        · simp [upd, h]

theorem Unlinked.chain {t t' : T α} {p n A B} (L : Unlinked t t' p A B n) (C : Chain t p (A ++ n :: B))
    (nd : (A ++ n :: B).Nodup) : Chain t' p (A ++ B) := by
  have ndA := (List.nodup_append.mp nd).1
  have ndB := (List.nodup_cons.mp (List.nodup_append.mp nd).2.1).2
  have disj : ∀ x ∈ A, x ∉ B := fun x hx hy => (List.nodup_append.mp nd).2.2 x hx x (by simp [hy]) rfl
  have hpvn := C.pv A n B rfl
  refine ⟨?_, ?_, ?_, ?_⟩
  · rw [L.child]
    by_cases h : A = []
    · subst h; simp [upd]
    · rw [if_neg h, C.head]
      cases A with
      | nil => exact absurd rfl h
      | cons a A => rfl
  · intro x hx
    rw [L.parent]
    apply C.par
    simp only [List.mem_append, List.mem_cons] at hx ⊢
    rcases hx with w | w
    · exact Or.inl w
    · exact Or.inr (Or.inr w)
  · intro A' x B' e
    rw [L.next]
    rcases List.append_eq_append_iff.mp e with ⟨D, rfl, e2⟩ | ⟨D, rfl, e2⟩
    · rw [if_neg, C.nx (A ++ n :: D) x B' (by simp [e2])]
      rintro ⟨hA, w⟩
      have hm := getLastD_mem hA 0
      rw [← w] at hm
      exact disj x hm (by rw [e2]; simp)
    · cases D with
      | nil =>
        simp only [List.nil_append] at e2
        subst e2
        simp only [List.append_nil] at *
        rw [if_neg, C.nx (A' ++ [n]) x B' (by simp)]
        rintro ⟨hA, w⟩
        have hm := getLastD_mem hA 0
        rw [← w] at hm
        exact disj x hm (by simp)
      | cons d D =>
        simp only [List.cons_append, List.cons.injEq] at e2
        obtain ⟨rfl, rfl⟩ := e2
        by_cases hD : D = []
        · subst hD
          rw [if_pos ⟨by simp, by rw [getLastD_concat]⟩]; rfl
        · rw [if_neg, C.nx A' x (D ++ n :: B) (by simp)]
          · cases D with
            | nil => exact absurd rfl hD
            | cons d D => rfl
          · rintro ⟨_, w⟩
            have : A' ++ x :: D = (A' ++ [x]) ++ D := by simp
            rw [this, getLastD_append hD] at w
            have hm := getLastD_mem hD 0
            rw [← w] at hm
            rw [this] at ndA
            exact (List.nodup_append.mp ndA).2.2 x (by simp) x hm rfl
  · have key : ∀ A' x B', A ++ B = A' ++ x :: B' → ∀ D, A' = A ++ D → B = D ++ x :: B' →
        t'.prev x = if A' = [] then B'.getLastD x else A'.getLastD 0 := by
      rintro A' x B' - D rfl rfl
      rw [L.prev]
      by_cases hD : D = []
      · subst hD
        rw [if_pos ⟨by simp, by simp⟩, hpvn]
        simp only [List.append_nil, List.nil_append]
        by_cases hA : A = []
        · rw [if_pos hA, if_pos hA]
          have : x :: B' = [x] ++ B' := rfl
          by_cases hB : B' = []
          · subst hB; rfl
          · rw [this, getLastD_append hB, getLastD_cons_ne hB]
        · rw [if_neg hA, if_neg hA]
      · have hne : x ≠ (D ++ x :: B').headD 0 := by
          intro w
          have : (D ++ x :: B').headD 0 = D.headD 0 := by
            cases D with
            | nil => exact absurd rfl hD
            | cons _ _ => rfl
          rw [this] at w
          have hm := headD_mem hD 0
          rw [← w] at hm
          exact (List.nodup_append.mp ndB).2.2 x hm x (by simp) rfl
        rw [if_neg (fun w => hne w.2), if_neg (by rintro ⟨w, _⟩; simp at w),
          C.pv (A ++ n :: D) x B' (by simp), if_neg (by simp), if_neg (by simp [hD]), getLastD_append hD]
        have : A ++ n :: D = (A ++ [n]) ++ D := by simp
        rw [this, getLastD_append hD]
    intro A' x B' e
    rcases List.append_eq_append_iff.mp e with ⟨D, h1, e2⟩ | ⟨D, rfl, e2⟩
    · exact key A' x B' e D h1 e2
    · cases D with
      | nil =>
        simp only [List.nil_append] at e2
        subst e2
        exact key A' x B' e [] (by simp) rfl
      | cons d D =>
        simp only [List.cons_append, List.cons.injEq] at e2
        obtain ⟨rfl, rfl⟩ := e2
        rw [L.prev, if_neg]
        · by_cases hA' : A' = []
          · subst hA'
            by_cases hB : B = []
            · subst hB
              rw [if_pos ⟨rfl, by simp, by simp⟩, if_pos rfl]
              simp only [List.nil_append, List.append_nil]
              by_cases hD : D = []
              · subst hD; rfl
              · have : x :: D = [x] ++ D := rfl
                rw [this, getLastD_append hD, getLastD_cons_ne hD]
            · rw [if_neg (by rintro ⟨w, _⟩; exact hB w), C.pv [] x (D ++ n :: B) (by simp), if_pos rfl, if_pos rfl,
                getLastD_append hB, getLastD_append (by simp)]
              have : n :: B = [n] ++ B := rfl
              rw [this, getLastD_append hB]
          · rw [if_neg, C.pv A' x (D ++ n :: B) (by simp), if_neg hA', if_neg hA']
            rintro ⟨_, _, w⟩
            have hm := headD_mem hA' 0
            have : (A' ++ x :: D).headD 0 = A'.headD 0 := by
              cases A' with
              | nil => exact absurd rfl hA'
              | cons _ _ => rfl
            rw [this] at w
            rw [← w] at hm
            exact (List.nodup_append.mp ndA).2.2 x hm x (by simp) rfl
        · rintro ⟨hB, w⟩
          have hm := headD_mem hB 0
          rw [← w] at hm
          exact disj x (by simp) hm

theorem Unlinked.frame {t t' : T α} {p n A B q l} (L : Unlinked t t' p A B n) (C : Chain t q l) (hq : q ≠ p)
    (hd : ∀ x ∈ l, x ∉ A ++ B) : Chain t' q l := by
  apply C.frame
  · rw [L.child]; split <;> simp [upd, hq]
  · intro x hx
    have h2 := hd x hx
    rw [List.mem_append, not_or] at h2
    refine ⟨by rw [L.parent], ?_, ?_⟩
    · rw [L.next, if_neg]
      rintro ⟨w, e⟩
      exact h2.1 (e ▸ getLastD_mem w 0)
    · rw [L.prev, if_neg, if_neg]
      · rintro ⟨_, w, e⟩; exact h2.1 (e ▸ headD_mem w 0)
      · rintro ⟨w, e⟩; exact h2.2 (e ▸ headD_mem w 0)

end Verif.Proof.Tree
