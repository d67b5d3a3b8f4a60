import Verif.Model.TrieBulk
import Verif.Proof.TrieIter

/-! Lemmas about the bulk `assign`. -/
namespace Verif.Proof.Trie
open Verif.Spec Verif.Spec.KeyMap Verif.Model.Trie

section lists

theorem lexLt_nil_right {s : List Nat} : ¬ lexLt s [] := by cases s <;> simp [lexLt]

theorem strLt_iff : ∀ s t : List Nat, strLt s t = true ↔ lexLt s t := by
  intro s
  induction s with
  | nil => intro t; cases t <;> simp [strLt, lexLt]
  | cons a s ih =>
    intro t
    cases t with
    | nil => simp [strLt, lexLt]
    | cons b t =>
      simp only [strLt, lexLt]
      by_cases h1 : a < b
      · simp [h1]
      · rw [if_neg h1]
        by_cases h2 : b < a
        · rw [if_pos h2]; simp; omega
        · rw [if_neg h2, ih]
          have : a = b := by omega
          simp [this]

theorem lexLt_total : ∀ s t : List Nat, lexLt s t ∨ s = t ∨ lexLt t s := by
  intro s
  induction s with
  | nil => intro t; cases t <;> simp [lexLt]
  | cons a s ih =>
    intro t
    cases t with
    | nil => simp [lexLt]
    | cons b t =>
      simp only [lexLt]
      rcases Nat.lt_trichotomy a b with h | h | h
      · exact Or.inl (Or.inl h)
      · subst h
        rcases ih t with q | q | q
        · exact Or.inl (Or.inr ⟨rfl, q⟩)
        · subst q; exact Or.inr (Or.inl rfl)
        · exact Or.inr (Or.inr (Or.inr ⟨rfl, q⟩))
      · exact Or.inr (Or.inr (Or.inl h))

theorem sortedUnique_iff : ∀ L : List (List Nat), sortedUnique L = true ↔ L.Pairwise lexLt := by
  intro L
  induction L with
  | nil => simp [sortedUnique]
  | cons a r ih =>
    cases r with
    | nil => simp [sortedUnique]
    | cons b r =>
      have key : (!strLt b a && decide (a ≠ b)) = true ↔ lexLt a b := by
        rw [Bool.and_eq_true, decide_eq_true_iff, Bool.not_eq_true', Bool.eq_false_iff, ne_eq, strLt_iff]
        constructor
        · rintro ⟨q1, q2⟩
          rcases lexLt_total a b with q | q | q
          · exact q
          · exact absurd q q2
          · exact absurd q q1
        · intro q
          refine ⟨fun w => lexLt_irrefl a (lexLt_trans q w), ?_⟩
          rintro rfl; exact lexLt_irrefl a q
      rw [sortedUnique, Bool.and_eq_true, key, ih]
      constructor
      · rintro ⟨q, w⟩
        rw [List.pairwise_cons]
        refine ⟨?_, w⟩
        intro x hx
        rcases List.mem_cons.mp hx with rfl | hx
        · exact q
        · exact lexLt_trans q ((List.pairwise_cons.mp w).1 x hx)
      · intro w
        exact ⟨(List.pairwise_cons.mp w).1 b (by simp), (List.pairwise_cons.mp w).2⟩

end lists

/-- What follows `p` in the strings of `L` that begin with `p`. -/
def tails (p : List Nat) (L : List (List Nat)) : List (List Nat) :=
  (L.filter fun s => decide (p <+: s)).map (List.drop p.length)

theorem tails_map (p L) : (tails p L).map (p ++ ·) = L.filter fun s => decide (p <+: s) := by
  unfold tails
  rw [List.map_map]
  conv => rhs; rw [← List.map_id (L.filter _)]
  apply List.map_congr_left
  intro s hs
  have := (List.mem_filter.mp hs).2
  rw [decide_eq_true_iff] at this
  obtain ⟨t, rfl⟩ := this
  simp

theorem mem_tails {p L t} : t ∈ tails p L ↔ p ++ t ∈ L := by
  constructor
  · intro h
    have : p ++ t ∈ (tails p L).map (p ++ ·) := List.mem_map.mpr ⟨t, h, rfl⟩
    rw [tails_map] at this
    exact (List.mem_filter.mp this).1
  · intro h
    have : p ++ t ∈ (tails p L).map (p ++ ·) := by
      rw [tails_map]; exact List.mem_filter.mpr ⟨h, by simp⟩
    obtain ⟨u, hu, e⟩ := List.mem_map.mp this
    simp only [List.append_cancel_left_eq] at e
    exact e ▸ hu

theorem tails_sorted {p L} (h : L.Pairwise lexLt) : (tails p L).Pairwise lexLt := by
  have h1 : ((tails p L).map (p ++ ·)).Pairwise lexLt := by
    rw [tails_map]; exact h.sublist List.filter_sublist
  rw [List.pairwise_map] at h1
  exact h1.imp lexLt_append.mp

theorem sorted_nil {T : List (List Nat)} (h : T.Pairwise lexLt) :
    skipEnd 0 T = T.filter (· ≠ []) := by
  cases T with
  | nil => rfl
  | cons s T =>
    have hT : T.filter (· ≠ []) = T := by
      rw [List.filter_eq_self]
      intro t ht
      have := (List.pairwise_cons.mp h).1 t ht
      rw [decide_eq_true_iff]
      rintro rfl
      exact lexLt_nil_right this
    show (if s.length = 0 then T else s :: T) = _
    by_cases hs : s = []
    · subst hs; rw [if_pos List.length_nil, List.filter_cons_of_neg (by simp), hT]
    · have : s.length ≠ 0 := by simpa using hs
      rw [if_neg this, List.filter_cons_of_pos (by simpa using hs), hT]

/-- First characters. -/
theorem heads_le {T : List (List Nat)} {a t} (h : ((a :: t) :: T).Pairwise lexLt) {b u} (hb : b :: u ∈ T) : a ≤ b := by
  have := (List.pairwise_cons.mp h).1 _ hb
  simp only [lexLt] at this
  omega

def hdIs (a : Nat) (x : List Nat) : Bool := x.head? == some a

theorem hdIs_iff {a x} : hdIs a x = true ↔ ∃ t, x = a :: t := by
  unfold hdIs
  cases x with
  | nil => simp
  | cons b x => simp

/-- After the group of `a` every string begins with a larger character. -/
theorem drop_larger : ∀ {T : List (List Nat)} {a}, T.Pairwise lexLt → (∀ x ∈ T, x ≠ []) →
    (∀ b u, b :: u ∈ T → a ≤ b) →
    T.takeWhile (hdIs a) = T.filter (hdIs a) ∧ (∀ b u, b :: u ∈ T.dropWhile (hdIs a) → a < b) := by
  intro T
  induction T with
  | nil => intro a _ _ _; simp
  | cons x T ih =>
    intro a hs hne hle
    cases x with
    | nil => exact absurd rfl (hne [] (by simp))
    | cons b u =>
      by_cases hb : b = a
      · subst hb
        have hx : hdIs b (b :: u) = true := hdIs_iff.mpr ⟨u, rfl⟩
        obtain ⟨e1, e2⟩ := ih (a := b) (List.pairwise_cons.mp hs).2 (fun x hx => hne x (by simp [hx]))
          (fun c v hc => hle c v (by simp [hc]))
        rw [List.takeWhile_cons_of_pos hx, List.filter_cons_of_pos hx, List.dropWhile_cons_of_pos hx, e1]
        exact ⟨rfl, e2⟩
      · have hab : a < b := by have := hle b u (by simp); omega
        have hx : ¬ hdIs a (b :: u) = true := by
          rw [hdIs_iff]; rintro ⟨t, e⟩; simp at e; exact hb e.1
        rw [List.takeWhile_cons_of_neg hx, List.filter_cons_of_neg hx, List.dropWhile_cons_of_neg hx]
        have hT : ∀ c v, c :: v ∈ T → a < c := fun c v hc => Nat.lt_of_lt_of_le hab (heads_le hs hc)
        constructor
        · symm
          rw [List.filter_eq_nil_iff]
          intro y hy w
          obtain ⟨t, rfl⟩ := hdIs_iff.mp w
          have := hT _ _ hy
          omega
        · intro c v hc
          rcases List.mem_cons.mp hc with q | q
          · simp at q; omega
          · exact hT c v q

theorem nextLoop_map (p : List Nat) (a : Nat) : ∀ (T : List (List Nat)), (∀ x ∈ T, x ≠ []) →
    nextLoop p.length a (T.map (p ++ ·)) = some ((T.dropWhile (hdIs a)).map (p ++ ·)) := by
  intro T
  induction T with
  | nil => intro _; rfl
  | cons x T ih =>
    intro hne
    cases x with
    | nil => exact absurd rfl (hne [] (by simp))
    | cons b u =>
      rw [List.map_cons, nextLoop]
      have : (p ++ b :: u)[p.length]? = some b := by simp
      rw [this, Option.bind_some]
      by_cases hb : a = b
      · subst hb
        rw [if_neg (by simp), List.dropWhile_cons_of_pos (hdIs_iff.mpr ⟨u, rfl⟩)]
        exact ih fun x hx => hne x (by simp [hx])
      · rw [if_pos hb, List.dropWhile_cons_of_neg]
        · rfl
        · rw [hdIs_iff]; rintro ⟨t, e⟩; simp at e; exact hb e.1.symm

/-- `it` stands at the node `p ++ [a]`, `T` being what follows `p` from that node to the end of the siblings. -/
def At (p : List Nat) (T : List (List Nat)) (a : Nat) (it : LIt) : Prop :=
  it.depth = p.length + 1 ∧ ∃ C : List (List Nat), it.seg = (T.filter (hdIs a)).map (p ++ ·) ++ C.map (p ++ ·) ∧
    ∀ c ∈ C, c ≠ [] ∧ ¬ hdIs a c = true

theorem childrenLoop_spec (p : List Nat) : ∀ (fuel : Nat) (T : List (List Nat)), T.length ≤ fuel → T.Pairwise lexLt →
    (∀ x ∈ T, x ≠ []) →
    ∃ ls as Q, childrenLoop fuel ⟨T.map (p ++ ·), p.length + 1⟩ = some (ls, Q) ∧ ls.Pairwise (· < ·) ∧
      (∀ a, a ∈ ls ↔ ∃ t, a :: t ∈ T) ∧ as.Pairwise (· < ·) ∧
      (∀ a, a ∈ as ↔ ∃ b t, a :: b :: t ∈ T) ∧ List.Forall₂ (At p T) as Q := by
  intro fuel
  induction fuel with
  | zero =>
    intro T hl _ _
    have : T = [] := List.length_eq_zero_iff.mp (by omega)
    subst this
    exact ⟨[], [], [], by simp [childrenLoop], by simp, by simp, by simp, by simp, List.Forall₂.nil⟩
  | succ fuel ih =>
    intro T hl hs hne
    cases T with
    | nil => exact ⟨[], [], [], by simp [childrenLoop], by simp, by simp, by simp, by simp, List.Forall₂.nil⟩
    | cons x T =>
      cases x with
      | nil => exact absurd rfl (hne [] (by simp))
      | cons a t =>
        have hle : ∀ b u, b :: u ∈ (a :: t) :: T → a ≤ b := by
          intro b u hb
          rcases List.mem_cons.mp hb with q | q
          · simp at q; omega
          · exact heads_le hs q
        obtain ⟨g1, g2⟩ := drop_larger hs hne hle
        have hx : hdIs a (a :: t) = true := hdIs_iff.mpr ⟨t, rfl⟩
        have split := List.takeWhile_append_dropWhile (p := hdIs a) (l := (a :: t) :: T)
        generalize hR : ((a :: t) :: T).dropWhile (hdIs a) = R at *
        have hRsub : R.Sublist ((a :: t) :: T) := by rw [← hR]; exact List.dropWhile_sublist _
        have hRlen : R.length ≤ fuel := by
          have : R.length ≤ T.length := by
            rw [← hR, List.dropWhile_cons_of_pos hx]; exact (List.dropWhile_sublist _).length_le
          simp at hl; omega
        obtain ⟨ls, as, Q, e, p1, p2, p3, p4, p5⟩ := ih R hRlen (hs.sublist hRsub) (fun y hy => hne y (hRsub.subset hy))
        have hmem : ∀ y, y ∈ (a :: t) :: T ↔ (hdIs a y = true ∧ y ∈ (a :: t) :: T) ∨ y ∈ R := by
          intro y
          conv => lhs; rw [← split, List.mem_append, g1, List.mem_filter]
          rw [and_comm]
        -- the functions of the iterator
        have e1 : (⟨((a :: t) :: T).map (p ++ ·), p.length + 1⟩ : LIt).deref = some a := by
          simp [LIt.deref, skipShort, headChar]
        have e2 : (⟨((a :: t) :: T).map (p ++ ·), p.length + 1⟩ : LIt).next = some (R.map (p ++ ·)) := by
          have := nextLoop_map p a ((a :: t) :: T) hne
          rw [hR] at this
          simp only [LIt.next, List.map_cons, skipShort, Nat.add_sub_cancel]
          rw [if_neg (by simp)]
          simp only [Option.bind_some, headChar]
          rw [show (p ++ a :: t)[p.length]? = some a by simp]
          exact this
        obtain ⟨c, e3, hc⟩ : ∃ c, (⟨((a :: t) :: T).map (p ++ ·), p.length + 1⟩ : LIt).hasChild = some c ∧
            (c = true ↔ ∃ b u, a :: b :: u ∈ (a :: t) :: T) := by
          unfold LIt.hasChild
          rw [if_neg (by simp), e1]
          simp only [List.map_cons, skipEnd]
          cases t with
          | cons b u =>
            rw [if_neg (by simp)]
            exact ⟨true, by simp, fun _ => ⟨b, u, by simp⟩, fun _ => rfl⟩
          | nil =>
            rw [if_pos (by simp)]
            cases T with
            | nil => exact ⟨false, rfl, by simp⟩
            | cons y T =>
              cases y with
              | nil => exact absurd rfl (hne [] (by simp))
              | cons b u =>
                simp only [List.map_cons, Nat.add_sub_cancel, Option.bind_some]
                rw [show (p ++ b :: u)[p.length]? = some b by simp]
                refine ⟨_, rfl, ?_⟩
                rw [decide_eq_true_iff]
                constructor
                · rintro rfl
                  have := (List.pairwise_cons.mp hs).1 (a :: u) (by simp)
                  simp only [lexLt] at this
                  rcases this with q | q
                  · omega
                  · cases u with
                    | nil => exact absurd q.2 (by simp [lexLt])
                    | cons v u => exact ⟨v, u, by simp⟩
                · rintro ⟨v, w, hv⟩
                  rcases List.mem_cons.mp hv with q | q
                  · simp at q
                  · rcases List.mem_cons.mp q with q | q
                    · simp at q; exact q.1
                    · have h1 := heads_le (List.pairwise_cons.mp hs).2 q
                      have h2 := hle b u (by simp)
                      omega
        have hAt : At p ((a :: t) :: T) a ⟨((a :: t) :: T).map (p ++ ·), p.length + 1⟩ := by
          refine ⟨rfl, R, ?_, ?_⟩
          · rw [← List.map_append, ← g1, split]
          · intro c hc
            refine ⟨hne c (hRsub.subset hc), ?_⟩
            rw [hdIs_iff]
            rintro ⟨u, rfl⟩
            have := g2 _ _ hc
            omega
        have hAtR : ∀ a' it, a' ∈ as → At p R a' it → At p ((a :: t) :: T) a' it := by
          rintro a' it ha' ⟨d, C, eC, hC⟩
          refine ⟨d, C, ?_, hC⟩
          rw [eC]
          congr 2
          rw [← split, List.filter_append]
          have : (List.takeWhile (hdIs a) ((a :: t) :: T)).filter (hdIs a') = [] := by
            rw [List.filter_eq_nil_iff]
            intro y hy w
            rw [g1] at hy
            obtain ⟨u, rfl⟩ := hdIs_iff.mp (List.mem_filter.mp hy).2
            obtain ⟨v, ev⟩ := hdIs_iff.mp w
            simp at ev
            obtain ⟨b, u', hb⟩ := (p4 a').mp ha'
            have := g2 _ _ hb
            omega
          rw [this, List.nil_append]
        refine ⟨a :: ls, if c = true then a :: as else as, if c = true then ⟨((a :: t) :: T).map (p ++ ·), p.length + 1⟩ :: Q else Q, ?_, ?_, ?_, ?_, ?_, ?_⟩
        · rw [childrenLoop, if_neg (by simp)]
          dsimp only
          rw [e1, e2, e3]
          simp only [Option.bind_some]
          rw [e]; rfl
        · rw [List.pairwise_cons]
          refine ⟨?_, p1⟩
          intro b hb
          obtain ⟨u, hu⟩ := (p2 b).mp hb
          exact g2 b u hu
        · intro b
          rw [List.mem_cons, p2]
          constructor
          · rintro (rfl | ⟨u, hu⟩)
            · exact ⟨t, by simp⟩
            · exact ⟨u, hRsub.subset hu⟩
          · rintro ⟨u, hu⟩
            rcases (hmem _).mp hu with ⟨q, _⟩ | q
            · obtain ⟨v, ev⟩ := hdIs_iff.mp q
              simp at ev; exact Or.inl ev.1
            · exact Or.inr ⟨u, q⟩
        · split
          · rw [List.pairwise_cons]
            refine ⟨?_, p3⟩
            intro b hb
            obtain ⟨v, u, hu⟩ := (p4 b).mp hb
            exact g2 b _ hu
          · exact p3
        · intro b
          have base : (∃ v u, b :: v :: u ∈ (a :: t) :: T) ↔ (b = a ∧ c = true) ∨ b ∈ as := by
            rw [p4]
            constructor
            · rintro ⟨v, u, hu⟩
              rcases (hmem _).mp hu with ⟨q, _⟩ | q
              · obtain ⟨w, ev⟩ := hdIs_iff.mp q
                simp at ev
                obtain ⟨rfl, _⟩ := ev
                exact Or.inl ⟨rfl, hc.mpr ⟨v, u, hu⟩⟩
              · exact Or.inr ⟨v, u, q⟩
            · rintro (⟨rfl, q⟩ | ⟨v, u, q⟩)
              · exact hc.mp q
              · exact ⟨v, u, hRsub.subset q⟩
          rw [base]
          split
          · rename_i q; simp [q]
          · rename_i q; simp [q]
        · have hold : List.Forall₂ (At p ((a :: t) :: T)) as Q := by
            clear e p3 p1 p2
            have := List.forall₂_iff_zip.mp p5
            refine List.forall₂_iff_zip.mpr ⟨this.1, fun {x y} hxy => ?_⟩
            exact hAtR x y (List.of_mem_zip hxy).1 (this.2 hxy)
          split
          · exact List.Forall₂.cons hAt hold
          · exact hold

/-- The strings properly extending `p`, without `p`. -/
def tl (p : List Nat) (L : List (List Nat)) : List (List Nat) := (tails p L).filter (· ≠ [])

theorem mem_tl {p L t} : t ∈ tl p L ↔ p ++ t ∈ L ∧ t ≠ [] := by
  unfold tl; rw [List.mem_filter, mem_tails, decide_eq_true_iff]

theorem tl_group (p : List Nat) (a : Nat) (L : List (List Nat)) :
    ((tl p L).filter (hdIs a)).map (p ++ ·) = L.filter fun s => decide (p ++ [a] <+: s) := by
  unfold tl tails
  induction L with
  | nil => rfl
  | cons s L ih =>
    by_cases h1 : p <+: s
    · obtain ⟨t, rfl⟩ := h1
      rw [List.filter_cons_of_pos (by simp), List.map_cons]
      simp only [List.drop_left]
      cases t with
      | nil =>
        rw [List.filter_cons_of_neg (by simp), List.filter_cons_of_neg, ih]
        rw [decide_eq_true_iff]
        intro w
        have := w.length_le
        simp at this
      | cons b t =>
        rw [List.filter_cons_of_pos (by simp)]
        by_cases hb : a = b
        · subst hb
          rw [List.filter_cons_of_pos (hdIs_iff.mpr ⟨t, rfl⟩), List.map_cons, ih, List.filter_cons_of_pos]
          rw [decide_eq_true_iff]
          exact ⟨t, by simp⟩
        · rw [List.filter_cons_of_neg, ih, List.filter_cons_of_neg]
          · rw [decide_eq_true_iff, List.prefix_append_right_inj]
            rintro ⟨u, e⟩
            simp at e; exact hb e.1
          · rw [hdIs_iff]; rintro ⟨u, e⟩; simp at e; exact hb e.1.symm
    · rw [List.filter_cons_of_neg (by simpa using h1), ih, List.filter_cons_of_neg]
      rw [decide_eq_true_iff]
      rintro ⟨u, e⟩
      exact h1 ⟨[a] ++ u, by rw [← e]; simp⟩

/-- `it` is the iterator of the node `p` over the strings `L`. -/
def Repr (L : List (List Nat)) (p : List Nat) (it : LIt) : Prop :=
  it.depth = p.length ∧
  (p = [] → it.seg = L) ∧
  (∀ q a, p = q ++ [a] → ∃ C : List (List Nat),
    it.seg = (L.filter fun s => decide (p <+: s)) ++ C.map (q ++ ·) ∧ ∀ c ∈ C, c ≠ [] ∧ ¬ hdIs a c = true)

theorem repr_of_at {L p a it} (h : At p (tl p L) a it) : Repr L (p ++ [a]) it := by
  obtain ⟨d, C, e, hC⟩ := h
  refine ⟨by simp [d], by simp, ?_⟩
  intro q b eq
  have := List.append_inj' eq rfl
  obtain ⟨rfl, e2⟩ := this
  simp only [List.cons.injEq, and_true] at e2
  subst e2
  exact ⟨C, by rw [e, tl_group], hC⟩

theorem skipEnd_append (p : List Nat) {T : List (List Nat)} (h : T.Pairwise lexLt) (hne : T ≠ []) (C) :
    skipEnd p.length (T.map (p ++ ·) ++ C) = (T.filter (· ≠ [])).map (p ++ ·) ++ C := by
  rw [← sorted_nil h]
  cases T with
  | nil => exact absurd rfl hne
  | cons s T =>
    simp only [List.map_cons, List.cons_append, skipEnd]
    by_cases hs : s.length = 0
    · rw [if_pos hs, if_pos (by simp [hs])]
    · rw [if_neg hs, if_neg (by simp at hs ⊢; exact hs)]; rfl

/-- A sorted list holds the empty string only in front. -/
theorem head_nil {s : List Nat} {T : List (List Nat)} (h : (s :: T).Pairwise lexLt) : s = [] ↔ [] ∈ s :: T := by
  constructor
  · rintro rfl; simp
  · intro q
    rcases List.mem_cons.mp q with q | q
    · exact q.symm
    · exact absurd ((List.pairwise_cons.mp h).1 [] q) lexLt_nil_right

/-- `assign_children()` at the node `p`. -/
theorem assignChildren_spec {L p it} (hL : L.Pairwise lexLt) (hb : ∀ s ∈ L, ∀ b ∈ s, b < 256) (R : Repr L p it)
    (hp : p ≠ [] → ∃ s ∈ L, p <+: s) :
    ∃ ls as Q, assignChildren it = some (ls, Q) ∧ ls.Pairwise (· < ·) ∧
      (∀ a, a ∈ ls ↔ (∃ t, p ++ a :: t ∈ L) ∨ (a = 256 ∧ p ∈ L ∧ p ≠ [])) ∧ as.Pairwise (· < ·) ∧
      (∀ a, a ∈ as ↔ ∃ b t, p ++ a :: b :: t ∈ L) ∧ List.Forall₂ (fun a it => Repr L (p ++ [a]) it) as Q ∧
      (p ≠ [] ∨ L ≠ [] → it.string = some p) := by
  have hT : (tl p L).Pairwise lexLt := (tails_sorted hL).sublist List.filter_sublist
  have hTne : ∀ x ∈ tl p L, x ≠ [] := fun x hx => (mem_tl.mp hx).2
  obtain ⟨hd, hroot, hnode⟩ := R
  -- begin and has_null
  have main : it.begin = some ⟨(tl p L).map (p ++ ·), p.length + 1⟩ ∧
      (∃ n, it.hasNull = some n ∧ (n = true ↔ p ∈ L ∧ p ≠ [])) ∧ (p ≠ [] ∨ L ≠ [] → it.string = some p) := by
    rcases List.eq_nil_or_concat p with rfl | ⟨q, a, e⟩
    · have es := hroot rfl
      simp only [List.length_nil] at hd
      have t0 : tails [] L = L := by
        have := tails_map [] L
        simpa using this
      refine ⟨?_, ⟨false, by simp [LIt.hasNull, hd], by simp⟩, ?_⟩
      · simp only [LIt.begin, hd, if_true, es]
        rw [sorted_nil hL]
        simp [tl, t0]
      · intro w
        have : L ≠ [] := by simpa using w
        cases hL' : L with
        | nil => exact absurd hL' this
        | cons s L => simp [LIt.string, es, hL', hd]
    · rw [List.concat_eq_append] at e
      obtain ⟨C, es, hC⟩ := hnode q a e
      have hpne : p ≠ [] := by rw [e]; simp
      obtain ⟨s0, hs0, ⟨t0, et0⟩⟩ := hp hpne
      have hTs : (tails p L).Pairwise lexLt := tails_sorted hL
      have hTn : tails p L ≠ [] := by
        intro w
        have : t0 ∈ tails p L := mem_tails.mpr (by rw [et0]; exact hs0)
        rw [w] at this; simp at this
      rw [← tails_map] at es
      have hlen : p.length = q.length + 1 := by rw [e]; simp
      have hd0 : it.depth ≠ 0 := by omega
      have hlv : it.depth - 1 = q.length := by omega
      cases hcs : tails p L with
      | nil => exact absurd hcs hTn
      | cons t T =>
        rw [hcs] at hTs
        have hchar : ∀ u : List Nat, (p ++ u)[q.length]? = some a := by intro u; rw [e]; simp
        -- next
        have hnext : it.next = some (C.map (q ++ ·)) := by
          unfold LIt.next
          rw [hlv, es, hcs]
          simp only [List.map_cons, List.cons_append, skipShort]
          rw [if_neg (by simp; omega)]
          simp only [Option.bind_some, headChar]
          rw [hchar]
          simp only [Option.bind_some]
          have hskip : ∀ U : List (List Nat), nextLoop q.length a (U.map (p ++ ·) ++ C.map (q ++ ·)) =
              nextLoop q.length a (C.map (q ++ ·)) := by
            intro U
            induction U with
            | nil => rfl
            | cons u U ih =>
              simp only [List.map_cons, List.cons_append, nextLoop]
              rw [hchar]
              simpa using ih
          have := hskip (t :: T)
          simp only [List.map_cons, List.cons_append] at this
          rw [this, nextLoop_map q a C (fun x hx => (hC x hx).1)]
          congr 2
          cases C with
          | nil => rfl
          | cons c C => rw [List.dropWhile_cons_of_neg (hC c (by simp)).2]
        refine ⟨?_, ?_, ?_⟩
        · unfold LIt.begin
          rw [if_neg hd0, hnext, Option.map_some, es, hd, hcs, skipEnd_append p hTs (by simp)]
          congr 1
          simp [tl, hcs]
        · unfold LIt.hasNull
          rw [if_neg hd0, es, hcs]
          simp only [List.map_cons, List.cons_append]
          refine ⟨_, rfl, ?_⟩
          rw [decide_eq_true_iff, hd]
          have h1 : (p ++ t).length = p.length ↔ t = [] := by simp
          rw [h1, head_nil hTs, ← hcs, mem_tails, List.append_nil]
          simp [hpne]
        · intro _
          unfold LIt.string
          rw [es, hcs]
          simp only [List.map_cons, List.cons_append]
          rw [hd, if_pos (by simp)]
          simp
  obtain ⟨e1, ⟨n, e2, hn⟩, e3⟩ := main
  obtain ⟨ls, as, Q, ec, p1, p2, p3, p4, p5⟩ := childrenLoop_spec p (tl p L).length (tl p L) (Nat.le_refl _) hT hTne
  have hlt : ∀ a ∈ ls, a < 256 := by
    intro a ha
    obtain ⟨t, ht⟩ := (p2 a).mp ha
    exact hb _ (mem_tl.mp ht).1 a (by simp)
  have hlen : ls.length ≤ 256 := by
    have nd : ls.Nodup := p1.imp fun h => Nat.ne_of_lt h
    have := (List.subperm_of_subset nd (fun a ha => List.mem_range.mpr (hlt a ha)) : ls.Subperm (List.range 256))
    simpa using this.length_le
  have hmemls : ∀ a, a ∈ ls ↔ ∃ t, p ++ a :: t ∈ L := by
    intro a
    rw [p2]
    constructor
    · rintro ⟨t, ht⟩; exact ⟨t, (mem_tl.mp ht).1⟩
    · rintro ⟨t, ht⟩; exact ⟨t, mem_tl.mpr ⟨ht, by simp⟩⟩
  refine ⟨if n = true then ls ++ [256] else ls, as, Q, ?_, ?_, ?_, p3, ?_, ?_, e3⟩
  · unfold assignChildren
    rw [e1, Option.bind_some]
    dsimp only
    rw [List.length_map, ec, e2]
    simp only [Option.bind_some]
    have hnv : nullValue = 256 := rfl
    rw [hnv, if_pos]
    split
    · rw [List.length_append, List.length_singleton]; omega
    · omega
  · split
    · rw [List.pairwise_append]
      refine ⟨p1, by simp, ?_⟩
      intro a ha b hb
      have := hlt a ha
      simp at hb; omega
    · exact p1
  · intro a
    split
    · rename_i q
      rw [List.mem_append, hmemls, List.mem_singleton]
      simp [hn.mp q]
    · rename_i q
      rw [hmemls]
      have : ¬ (p ∈ L ∧ p ≠ []) := fun w => q (hn.mpr w)
      constructor
      · exact Or.inl
      · rintro (w | ⟨_, w⟩)
        · exact w
        · exact absurd w this
  · intro a
    rw [p4]
    constructor
    · rintro ⟨b, t, ht⟩; exact ⟨b, t, (mem_tl.mp ht).1⟩
    · rintro ⟨b, t, ht⟩; exact ⟨b, t, mem_tl.mpr ⟨ht, by simp⟩⟩
  · exact p5.imp fun _ _ h => repr_of_at h

end Verif.Proof.Trie
