import Verif.Model.TrieHeap
import Batteries.Tactic.Init
import Mathlib.Tactic.Tauto

/-!
Lemmas about the list of unused nodes of the trie heap: `reserve`, `allocate`, `free`, `locate`.
-/
namespace Verif.Proof.Trie
open Verif.Model.Trie

/-- The successor of `i` in the list of unused nodes is right. -/
def NextF (h : Heap) (F : Nat → Prop) (i : Nat) : Prop :=
  (h.check i = 0 ∧ ∀ j, F j → j ≤ i) ∨
    ∃ j, F j ∧ i < j ∧ h.check i = -(j : Int) ∧ ∀ k, F k → k ≤ i ∨ j ≤ k

/-- The unused nodes are exactly `F`, linked in ascending order from node 0. -/
structure FL (h : Heap) (F : Nat → Prop) : Prop where
  pos : 2 ≤ h.len
  rng : ∀ i, F i → 2 ≤ i ∧ i < h.len
  nx : ∀ i, (i = 0 ∨ F i) → NextF h F i

theorem FL.le0 {h F} (H : FL h F) {i} (hi : i = 0 ∨ F i) : h.check i ≤ 0 := by
  rcases H.nx i hi with ⟨a, _⟩ | ⟨j, _, _, a, _⟩ <;> omega

theorem FL.congr {h F G} (H : FL h F) (e : ∀ i, F i ↔ G i) : FL h G := by
  have : F = G := funext fun i => propext (e i)
  exact this ▸ H

theorem nxt_spec {h F} (H : FL h F) {i} (hi : i = 0 ∨ F i) :
    ∃ j, nxt h i = some j ∧ ((j = 0 ∧ h.check i = 0 ∧ ∀ k, F k → k ≤ i) ∨
      (F j ∧ i < j ∧ h.check i = -(j : Int) ∧ ∀ k, F k → k ≤ i ∨ j ≤ k)) := by
  have hl : i < h.len := by
    rcases hi with e | e
    · have := H.pos; omega
    · exact (H.rng i e).2
  have hle := H.le0 hi
  refine ⟨(-(h.check i)).toNat, by simp [nxt, rdC, hl, hle], ?_⟩
  rcases H.nx i hi with ⟨a, b⟩ | ⟨j, fj, ij, a, b⟩
  · left; exact ⟨by simp [a], a, b⟩
  · right
    have e : (-(h.check i)).toNat = j := by omega
    rw [e]; exact ⟨fj, ij, a, b⟩

theorem reserveWalk_spec {h F} (H : FL h F) : ∀ n i, (i = 0 ∨ F i) → h.len < n + i →
    ∃ b, reserveWalk n h i = some b ∧ (b = 0 ∨ F b) ∧ h.check b = 0 ∧ ∀ k, F k → k ≤ b := by
  intro n
  induction n with
  | zero =>
    intro i hi hn
    rcases hi with e | e
    · omega
    · have := H.rng i e; omega
  | succ n ih =>
    intro i hi hn
    obtain ⟨j, e, hj⟩ := nxt_spec H hi
    rcases hj with ⟨j0, c0, hk⟩ | ⟨fj, ij, cj, hk⟩
    · subst j0
      exact ⟨i, by simp [reserveWalk, e], hi, c0, hk⟩
    · have := H.rng j fj
      obtain ⟨b, e2, r⟩ := ih j (Or.inr fj) (by omega)
      refine ⟨b, ?_, r⟩
      have j0 : j ≠ 0 := by omega
      simp [reserveWalk, e, j0, this.2, e2]

theorem reserveLink_spec : ∀ n id b (h : Heap) F, FL h F → (b = 0 ∨ F b) → (∀ k, F k → k ≤ b) →
    b < id → 2 ≤ id → id + n ≤ h.len → (∀ i, id ≤ i → h.check i = 0) →
    ∃ h', reserveLink n id b h = some h' ∧ FL h' (fun i => F i ∨ (id ≤ i ∧ i < id + n)) ∧
      h'.len = h.len ∧ h'.base = h.base ∧
      ∀ i, i ≠ 0 → ¬ F i → i < id → h'.check i = h.check i := by
  intro n
  induction n with
  | zero =>
    intro id b h F H hb hk hlt h2 hl hc
    exact ⟨h, rfl, H.congr (by intro i; constructor; · exact Or.inl
                               · rintro (a | a); exacts [a, by omega]), rfl, rfl, fun _ _ _ _ => rfl⟩
  | succ n ih =>
    intro id b h F H hb hk hlt h2 hl hc
    have hbl : b < h.len := by omega
    let h1 : Heap := { h with check := upd h.check b (-(id : Int)) }
    have H1 : FL h1 (fun i => F i ∨ i = id) := by
      refine ⟨H.pos, ?_, ?_⟩
      · rintro i (a | a)
        · exact H.rng i a
        · show 2 ≤ i ∧ i < h.len; omega
      · intro i hi
        by_cases hid : i = id
        · left
          refine ⟨?_, ?_⟩
          · show upd h.check b _ i = 0
            rw [upd, if_neg (by omega)]; exact hc i (by omega)
          · rintro j (a | a)
            · have := hk j a; omega
            · omega
        · by_cases hib : i = b
          · right
            refine ⟨id, Or.inr rfl, by omega, ?_, ?_⟩
            · show upd h.check b _ i = _
              rw [upd, if_pos hib]
            · rintro k (a | a)
              · left; have := hk k a; omega
              · right; omega
          · have hi' : i = 0 ∨ F i := by
              rcases hi with a | a | a
              exacts [Or.inl a, Or.inr a, absurd a hid]
            have ce : h1.check i = h.check i := by
              show upd h.check b _ i = _
              rw [upd, if_neg hib]
            rcases H.nx i hi' with ⟨a, c⟩ | ⟨j, fj, ij, a, c⟩
            · exfalso
              have : i ≤ b := by
                rcases hi' with e | e
                · omega
                · exact hk i e
              rcases hb with e | e
              · omega
              · have := c b e; omega
            · right
              refine ⟨j, Or.inl fj, ij, ce ▸ a, ?_⟩
              rintro k (q | q)
              · exact c k q
              · right; have := hk j fj; omega
    obtain ⟨h', e, H', l', b', c'⟩ := ih (id + 1) id h1 _ H1 (Or.inr (Or.inr rfl))
      (by rintro k (a | a); · have := hk k a; omega
          · omega) (by omega) (by omega) (by show _ ≤ h.len; omega) (by
        intro i hi
        show upd h.check b _ i = 0
        rw [upd, if_neg (by omega)]; exact hc i (by omega))
    refine ⟨h', ?_, H'.congr ?_, l', b', ?_⟩
    · simp only [reserveLink, wrC, if_pos hbl, Option.bind_some]; exact e
    · intro i; constructor
      · rintro ((a | a) | a)
        · exact Or.inl a
        · right; omega
        · right; omega
      · rintro (a | a)
        · exact Or.inl (Or.inl a)
        · by_cases i = id
          · left; right; assumption
          · right; omega
    · intro i i0 nf il
      rw [c' i i0 (by rintro (a | a); exacts [nf a, by omega]) (by omega)]
      show upd h.check b _ i = _
      rw [upd, if_neg]
      intro e; subst e
      rcases hb with a | a
      exacts [i0 a, nf a]

theorem reserve_spec {h F} (H : FL h F) (n : Nat) :
    ∃ h', reserve h n = some h' ∧ FL h' (fun i => F i ∨ (h.len ≤ i ∧ i < h.len + n)) ∧
      h'.len = h.len + n ∧ (∀ i, h'.base i = if h.len ≤ i then 0 else h.base i) ∧
      ∀ i, i ≠ 0 → ¬ F i → i < h.len → h'.check i = h.check i := by
  have hp := H.pos
  have ce : ∀ i, i < h.len → (extend h n).check i = h.check i := by
    intro i hi; simp [extend]; omega
  have H1 : FL (extend h n) F := by
    refine ⟨by simp [extend]; omega, ?_, ?_⟩
    · intro i hi; have := H.rng i hi; exact ⟨this.1, by simp [extend]; omega⟩
    · intro i hi
      have hil : i < h.len := by
        rcases hi with e | e
        · omega
        · exact (H.rng i e).2
      rcases H.nx i hi with ⟨a, c⟩ | ⟨j, fj, ij, a, c⟩
      · exact Or.inl ⟨by rw [ce i hil, a], c⟩
      · exact Or.inr ⟨j, fj, ij, by rw [ce i hil, a], c⟩
  obtain ⟨b, e, hb, c0, hk⟩ := reserveWalk_spec H1 ((extend h n).len + 1) 0 (Or.inl rfl) (by omega)
  have hbl : b < h.len := by
    rcases hb with e | e
    · omega
    · exact (H.rng b e).2
  obtain ⟨h', e', H', l', b', c'⟩ := reserveLink_spec n h.len b (extend h n) F H1 hb hk hbl (by omega)
    (by simp [extend]) (by intro i hi; simp [extend, hi])
  refine ⟨h', ?_, H', by rw [l']; rfl, by intro i; rw [b']; rfl, ?_⟩
  · have : 0 < h.len := by omega
    simp [reserve, this, e, e']
  · intro i i0 nf il
    rw [c' i i0 nf il, ce i il]

theorem allocWalk_spec {h F} (H : FL h F) {idx} (hx : F idx) : ∀ n i bb, (i = 0 ∨ F i) → i < idx →
    idx < n + i →
    ∃ b, allocWalk n h i bb idx = some b ∧ (b = 0 ∨ F b) ∧ i ≤ b ∧ b < idx ∧
      h.check b = -(idx : Int) ∧ ∀ k, F k → k ≤ b ∨ idx ≤ k := by
  intro n
  induction n with
  | zero => intro i bb hi hlt hn; omega
  | succ n ih =>
    intro i bb hi hlt hn
    have hil : i < h.len := by have := H.rng idx hx; omega
    have hne : i ≠ idx := by omega
    obtain ⟨j, e, hj⟩ := nxt_spec H hi
    rcases hj with ⟨j0, c0, hk⟩ | ⟨fj, ij, cj, hk⟩
    · have := hk idx hx; omega
    · by_cases hji : j = idx
      · subst hji
        refine ⟨i, ?_, hi, Nat.le_refl _, hlt, cj, hk⟩
        have hn0 : ∃ m, n = m + 1 := ⟨n - 1, by omega⟩
        obtain ⟨m, rfl⟩ := hn0
        simp [allocWalk, hne, hil, e]
      · have hjx : j < idx := by have := hk idx hx; omega
        obtain ⟨b, e2, r1, r2, r3⟩ := ih j i (Or.inr fj) hjx (by omega)
        refine ⟨b, ?_, r1, by omega, r3⟩
        simp [allocWalk, hne, hil, e, e2]

/-- Unlinking one unused node. -/
theorem FL.unlink {h F} (H : FL h F) {b idx} (hx : F idx) (hb : b = 0 ∨ F b) (hlt : b < idx)
    (hk : ∀ k, F k → k ≤ b ∨ idx ≤ k) :
    FL { h with check := upd (upd h.check b (h.check idx)) idx 0 } (fun i => F i ∧ i ≠ idx) := by
  refine ⟨H.pos, fun i hi => H.rng i hi.1, ?_⟩
  intro i hi
  have hi' : i = 0 ∨ F i := hi.imp id And.left
  have hix : i ≠ idx := by
    rcases hi with e | e
    · have := (H.rng idx hx).1; omega
    · exact e.2
  by_cases hib : i = b
  · subst hib
    have ce : (upd (upd h.check i (h.check idx)) idx 0) i = h.check idx := by
      simp [upd, hix]
    rcases H.nx idx (Or.inr hx) with ⟨a, c⟩ | ⟨j, fj, ij, a, c⟩
    · left
      refine ⟨ce.trans a, ?_⟩
      rintro j ⟨fj, jx⟩
      have := c j fj
      have := hk j fj
      omega
    · right
      refine ⟨j, ⟨fj, by omega⟩, by omega, ce.trans a, ?_⟩
      rintro k ⟨fk, kx⟩
      have := hk k fk
      have := c k fk
      omega
  · have ce : (upd (upd h.check b (h.check idx)) idx 0) i = h.check i := by
      simp [upd, hix, hib]
    rcases H.nx i hi' with ⟨a, c⟩ | ⟨j, fj, ij, a, c⟩
    · exact Or.inl ⟨ce.trans a, fun j hj => c j hj.1⟩
    · right
      refine ⟨j, ⟨fj, ?_⟩, ij, ce.trans a, fun k hk => c k hk.1⟩
      rintro rfl
      rcases hb with e | e
      · rcases hi' with e' | e'
        · exact hib (by omega)
        · have := hk i e'; have := (H.rng i e').1; omega
      · have := c b e
        rcases hi' with e' | e'
        · omega
        · have := hk i e'; omega

theorem allocLoop_spec (base : Nat) : ∀ ls before (h : Heap) F, FL h F → (before = 0 ∨ F before) →
    ls.Pairwise (· < ·) → (∀ l ∈ ls, before < base + l) →
    (∀ l ∈ ls, F (base + l) ∨ (base + l < h.len ∧ 1 ≤ h.check (base + l))) →
    ∃ h', allocLoop base ls before h = some h' ∧
      FL h' (fun i => F i ∧ ∀ l ∈ ls, i ≠ base + l) ∧ h'.len = h.len ∧ h'.base = h.base ∧
      (∀ i, i ≠ 0 → ¬ F i → h'.check i = h.check i) ∧
      (∀ l ∈ ls, F (base + l) → h'.check (base + l) = 0) := by
  intro ls
  induction ls with
  | nil =>
    intro before h F H hb _ _ _
    exact ⟨h, rfl, H.congr (by simp), rfl, rfl, fun _ _ _ => rfl, by simp⟩
  | cons l ls ih =>
    intro before h F H hb hs hlt hf
    have hs' := List.pairwise_cons.mp hs
    by_cases hx : F (base + l)
    · have hle := H.le0 (Or.inr hx)
      have hxl := (H.rng _ hx).2
      obtain ⟨b, e, r1, r2, r3, r4, r5⟩ := allocWalk_spec H hx (h.len + 1) before before hb
        (hlt l (by simp)) (by omega)
      have H1 := H.unlink hx r1 r3 r5
      obtain ⟨h', e', H', l', b', c', z'⟩ := ih b _ _ H1
        (r1.imp id fun q => ⟨q, by omega⟩) hs'.2
        (by intro l' hl'; have := hs'.1 l' hl'; omega)
        (by
          intro l' hl'
          have hne : base + l' ≠ base + l := by have := hs'.1 l' hl'; omega
          rcases hf l' (by simp [hl']) with q | ⟨q1, q2⟩
          · exact Or.inl ⟨q, hne⟩
          · right
            refine ⟨q1, ?_⟩
            have hnb : base + l' ≠ b := by
              intro q; have := H.le0 r1; rw [q] at q2; omega
            show 1 ≤ upd _ _ _ _
            rw [upd, if_neg hne, upd, if_neg hnb]; exact q2)
      refine ⟨h', ?_, H'.congr ?_, l', b', ?_, ?_⟩
      · have hbl : b < h.len := by omega
        have : ¬ (1 ≤ h.check (base + l)) := by omega
        simp only [allocLoop, rdC, if_pos hxl, Option.bind_some, if_neg this, e, wrC, if_pos hbl]
        exact e'
      · intro i
        simp only [List.mem_cons, forall_eq_or_imp]
        constructor
        · rintro ⟨⟨a, c⟩, d⟩; exact ⟨a, c, d⟩
        · rintro ⟨a, c, d⟩; exact ⟨⟨a, c⟩, d⟩
      · intro i i0 nf
        rw [c' i i0 (fun q => nf q.1)]
        have : i ≠ base + l := by rintro rfl; exact nf hx
        have : i ≠ b := by
          rintro rfl
          rcases r1 with q | q
          exacts [i0 q, nf q]
        simp [upd, *]
      · intro l' hl' hF
        rcases List.mem_cons.mp hl' with rfl | hm
        · rw [c' _ (by have := (H.rng _ hx).1; omega) (fun q => q.2 rfl)]
          simp [upd]
        · exact z' l' hm ⟨hF, by have := hs'.1 l' hm; omega⟩
    · have hq := (hf l (by simp)).resolve_left hx
      obtain ⟨h', e', H', l', b', c', z'⟩ := ih before h F H hb hs'.2
        (fun l' hl' => hlt l' (by simp [hl'])) (fun l' hl' => hf l' (by simp [hl']))
      refine ⟨h', ?_, H'.congr ?_, l', b', c', ?_⟩
      · simp only [allocLoop, rdC, if_pos hq.1, Option.bind_some, if_pos hq.2]; exact e'
      · intro i
        simp only [List.mem_cons, forall_eq_or_imp]
        constructor
        · rintro ⟨a, c⟩; exact ⟨a, by rintro rfl; exact hx a, c⟩
        · rintro ⟨a, c, d⟩; exact ⟨a, d⟩
      · intro l' hl' hF
        rcases List.mem_cons.mp hl' with rfl | hm
        · exact absurd hF hx
        · exact z' l' hm hF

theorem isSorted_of_lt : ∀ l : List Nat, l.Pairwise (· < ·) → isSorted l = true
  | [], _ => rfl
  | [_], _ => rfl
  | a :: b :: r, h => by
    have h' := List.pairwise_cons.mp h
    have := h'.1 b (by simp)
    simp only [isSorted, Bool.and_eq_true, decide_eq_true_eq]
    exact ⟨by omega, isSorted_of_lt (b :: r) h'.2⟩

theorem le_getLast : ∀ (l : List Nat) b, l.Pairwise (· < ·) → l.getLast? = some b →
    b ∈ l ∧ ∀ x ∈ l, x ≤ b
  | [], _, _, h => by simp at h
  | [a], b, _, h => by simp at h; subst h; simp
  | a :: c :: r, b, hp, h => by
    have h' := List.pairwise_cons.mp hp
    obtain ⟨m, k⟩ := le_getLast (c :: r) b h'.2 (by simpa using h)
    refine ⟨List.mem_cons_of_mem _ m, ?_⟩
    intro x hx
    rcases List.mem_cons.mp hx with rfl | hx
    · have := h'.1 b m; omega
    · exact k x hx

theorem allocate_spec {h F} (H : FL h F) {base labels before back} (h1 : 1 ≤ base)
    (hs : labels.Pairwise (· < ·)) (hb : before = 0 ∨ F before)
    (hback : labels.getLast? = some back)
    (hlt : ∀ l ∈ labels, before < base + l) (h1l : ∀ l ∈ labels, 2 ≤ base + l)
    (hf : ∀ l ∈ labels, F (base + l) ∨ (base + l < h.len ∧ 1 ≤ h.check (base + l)) ∨
      h.len ≤ base + l) :
    ∃ h', allocate h base labels before = some h' ∧
      FL h' (fun i => (F i ∨ (h.len ≤ i ∧ i < h'.len)) ∧ ∀ l ∈ labels, i ≠ base + l) ∧
      h.len ≤ h'.len ∧ base + back < h'.len ∧
      (∀ i, i < h'.len → h'.base i = if h.len ≤ i then 0 else h.base i) ∧
      (∀ i, i ≠ 0 → ¬ F i → i < h.len → h'.check i = h.check i) ∧
      (∀ l ∈ labels, F (base + l) ∨ h.len ≤ base + l → h'.check (base + l) = 0) := by
  have hbl : before < h.len := by
    rcases hb with e | e
    · have := H.pos; omega
    · exact (H.rng _ e).2
  obtain ⟨hbm, hbk⟩ := le_getLast _ _ hs hback
  by_cases hr : h.len ≤ base + back
  · obtain ⟨hh, e, H2, l2, b2, c2⟩ := reserve_spec H (base + back + 1 - h.len)
    obtain ⟨h', e', H', l', b', c', z'⟩ := allocLoop_spec base labels before hh _ H2
      (hb.imp id Or.inl) hs hlt (by
        intro l hl
        have := hbk l hl
        rcases hf l hl with q | ⟨q1, q2⟩ | q
        · exact Or.inl (Or.inl q)
        · by_cases hF : F (base + l)
          · exact Or.inl (Or.inl hF)
          · right
            refine ⟨by omega, ?_⟩
            rw [c2 _ (by omega) hF q1]; exact q2
        · left; right; omega)
    refine ⟨h', ?_, ?_, by omega, by omega, ?_, ?_, ?_⟩
    · simp [allocate, hback, h1, isSorted_of_lt _ hs, hbl, hr, e, e']
    · have : h.len + (base + back + 1 - h.len) = h'.len := by omega
      rw [this] at H'; exact H'
    · intro i _
      rw [b', b2 i]
    · intro i i0 nf il
      rw [c' i i0 (by rintro (q | q); exacts [nf q, by omega]), c2 i i0 nf il]
    · intro l hl hq
      have := hbk l hl
      exact z' l hl (hq.imp id fun q => by omega)
  · obtain ⟨h', e', H', l', b', c', z'⟩ := allocLoop_spec base labels before h _ H hb hs hlt (by
        intro l hl
        have := hbk l hl
        rcases hf l hl with q | q | q
        · exact Or.inl q
        · exact Or.inr q
        · omega)
    refine ⟨h', ?_, H'.congr ?_, by omega, by omega, ?_, ?_, ?_⟩
    · simp [allocate, hback, h1, isSorted_of_lt _ hs, hbl, hr, e']
    · intro i
      constructor
      · rintro ⟨a, b⟩; exact ⟨Or.inl a, b⟩
      · rintro ⟨a | a, b⟩
        · exact ⟨a, b⟩
        · omega
    · intro i _
      rw [b', if_neg (by omega)]
    · intro i i0 nf il; exact c' i i0 nf
    · intro l hl hq
      have := hbk l hl
      rcases hq with q | q
      · exact z' l hl q
      · omega

theorem freeWalk_spec {h F} (H : FL h F) {idx} (hx : ¬ F idx) : ∀ n i, (i = 0 ∨ F i) → i < idx →
    h.len < n + i →
    ∃ b, freeWalk n h i idx = some b ∧ (b = 0 ∨ F b) ∧ b < idx ∧ ∀ k, F k → k ≤ b ∨ idx < k := by
  intro n
  induction n with
  | zero =>
    intro i hi hlt hn
    rcases hi with e | e
    · omega
    · have := H.rng i e; omega
  | succ n ih =>
    intro i hi hlt hn
    obtain ⟨j, e, hj⟩ := nxt_spec H hi
    rcases hj with ⟨j0, c0, hk⟩ | ⟨fj, ij, cj, hk⟩
    · exact ⟨i, by simp [freeWalk, e, j0], hi, hlt, fun k fk => Or.inl (hk k fk)⟩
    · have hr := H.rng j fj
      by_cases hji : j < idx
      · obtain ⟨b, e2, r⟩ := ih j (Or.inr fj) hji (by omega)
        refine ⟨b, ?_, r⟩
        have : j ≠ 0 := by omega
        simp [freeWalk, e, this, hji, hr.2, e2]
      · refine ⟨i, by simp [freeWalk, e, hji], hi, hlt, ?_⟩
        intro k fk
        have : k ≠ idx := by rintro rfl; exact hx fk
        have := hk k fk
        omega

theorem freeOne_spec {h F} (H : FL h F) {idx before} (hx : ¬ F idx) (h2 : 2 ≤ idx) (hl : idx < h.len)
    (hb : before = 0 ∨ F before) (hlt : before < idx) :
    ∃ h' b, freeOne h idx before = some (h', b) ∧ FL h' (fun i => F i ∨ i = idx) ∧
      (b = 0 ∨ F b) ∧ b < idx ∧ h'.len = h.len ∧ h'.base = upd h.base idx 0 ∧
      ∀ i, i ≠ 0 → ¬ F i → i ≠ idx → h'.check i = h.check i := by
  obtain ⟨b, e, r1, r2, r3⟩ := freeWalk_spec H hx (h.len + 1) before hb hlt (by omega)
  have hbl : b < h.len := by omega
  have hbf : before < h.len := by omega
  have hbx : b ≠ idx := by omega
  refine ⟨⟨h.len, upd h.base idx 0, upd (upd h.check idx (h.check b)) b (-(idx : Int))⟩, b,
    ?_, ?_, r1, r2, rfl, rfl, ?_⟩
  · have : 1 < idx := h2
    simp [freeOne, this, hl, hbf, e, wrB, wrC, rdC, hbl]
  · refine ⟨H.pos, ?_, ?_⟩
    · rintro i (a | a)
      · exact H.rng i a
      · subst a; exact ⟨h2, hl⟩
    · intro i hi
      by_cases hib : i = b
      · right
        refine ⟨idx, Or.inr rfl, by omega, by simp [upd, hib], ?_⟩
        rintro k (a | a)
        · have := r3 k a; omega
        · omega
      · by_cases hix : i = idx
        · have ce : upd (upd h.check idx (h.check b)) b (-(idx : Int)) i = h.check b := by
            simp only [upd]; rw [if_neg hib, if_pos hix]
          rcases H.nx b r1 with ⟨a, c⟩ | ⟨j, fj, ij, a, c⟩
          · left
            refine ⟨ce.trans a, ?_⟩
            rintro j (q | q)
            · have := c j q; omega
            · omega
          · right
            have := r3 j fj
            refine ⟨j, Or.inl fj, by omega, ce.trans a, ?_⟩
            rintro k (q | q)
            · have := c k q; omega
            · omega
        · have hi' : i = 0 ∨ F i := by tauto
          have ce : upd (upd h.check idx (h.check b)) b (-(idx : Int)) i = h.check i := by
            simp only [upd]; rw [if_neg hib, if_neg hix]
          rcases H.nx i hi' with ⟨a, c⟩ | ⟨j, fj, ij, a, c⟩
          · left
            refine ⟨ce.trans a, ?_⟩
            rintro j (q | q)
            · exact c j q
            · subst q
              rcases r1 with q | q
              · rcases hi' with w | w
                · omega
                · have := r3 i w; have := (H.rng i w).1; omega
              · have := c b q
                rcases hi' with w | w
                · omega
                · have := r3 i w; omega
          · right
            refine ⟨j, Or.inl fj, ij, ce.trans a, ?_⟩
            rintro k (q | q)
            · exact c k q
            · subst q
              have := r3 j fj
              rcases hi' with w | w
              · rcases r1 with v | v
                · omega
                · have := c b v; omega
              · have := r3 i w
                rcases r1 with v | v
                · omega
                · have := c b v; omega
  · intro i i0 nf ix
    have : i ≠ b := by
      rintro rfl
      rcases r1 with q | q
      exacts [i0 q, nf q]
    simp [upd, this, ix]

theorem freeLoop_spec (base : Nat) : ∀ ls before (h : Heap) F, FL h F → (before = 0 ∨ F before) →
    ls.Pairwise (· < ·) → (∀ l ∈ ls, before < base + l) →
    (∀ l ∈ ls, ¬ F (base + l) ∧ 2 ≤ base + l ∧ base + l < h.len) →
    ∃ h', freeLoop base ls before h = some h' ∧
      FL h' (fun i => F i ∨ ∃ l ∈ ls, i = base + l) ∧ h'.len = h.len ∧
      (∀ i, (∀ l ∈ ls, i ≠ base + l) → h'.base i = h.base i) ∧
      (∀ l ∈ ls, h'.base (base + l) = 0) ∧
      (∀ i, i ≠ 0 → ¬ F i → (∀ l ∈ ls, i ≠ base + l) → h'.check i = h.check i) := by
  intro ls
  induction ls with
  | nil =>
    intro before h F H _ _ _ _
    exact ⟨h, rfl, H.congr (by simp), rfl, fun _ _ => rfl, by simp, fun _ _ _ _ => rfl⟩
  | cons l ls ih =>
    intro before h F H hb hs hlt hf
    have hs' := List.pairwise_cons.mp hs
    obtain ⟨q1, q2, q3⟩ := hf l (by simp)
    obtain ⟨h1, b, e, H1, r1, r2, l1, b1, c1⟩ := freeOne_spec H q1 q2 q3 hb (hlt l (by simp))
    obtain ⟨h', e', H', l', b', z', c'⟩ := ih b h1 _ H1 (r1.imp id Or.inl) hs'.2
      (by intro m hm; have := hs'.1 m hm; omega)
      (by
        intro m hm
        have := hs'.1 m hm
        obtain ⟨p1, p2, p3⟩ := hf m (by simp [hm])
        exact ⟨by rintro (q | q); exacts [p1 q, by omega], p2, by omega⟩)
    refine ⟨h', by simp [freeLoop, e, e'], H'.congr ?_, by omega, ?_, ?_, ?_⟩
    · intro i; simp only [List.mem_cons, exists_eq_or_imp]; tauto
    · intro i hi
      simp only [List.mem_cons, forall_eq_or_imp] at hi
      rw [b' i hi.2, b1, upd, if_neg hi.1]
    · intro m hm
      rcases List.mem_cons.mp hm with rfl | hm
      · by_cases hex : ∃ m' ∈ ls, base + m = base + m'
        · obtain ⟨m', hm', q⟩ := hex; rw [q]; exact z' m' hm'
        · rw [b' _ (by intro m' hm' q; exact hex ⟨m', hm', q⟩), b1, upd, if_pos rfl]
      · exact z' m hm
    · intro i i0 nf hi
      simp only [List.mem_cons, forall_eq_or_imp] at hi
      rw [c' i i0 (by rintro (q | q); exacts [nf q, hi.1 q]) hi.2, c1 i i0 nf hi.1]

theorem freeAll_spec {h F} (H : FL h F) {base labels back} (h1 : 1 ≤ base)
    (hs : labels.Pairwise (· < ·)) (hback : labels.getLast? = some back)
    (hf : ∀ l ∈ labels, ¬ F (base + l) ∧ 2 ≤ base + l ∧ base + l < h.len) :
    ∃ h', freeAll h base labels = some h' ∧
      FL h' (fun i => F i ∨ ∃ l ∈ labels, i = base + l) ∧ h'.len = h.len ∧
      (∀ i, (∀ l ∈ labels, i ≠ base + l) → h'.base i = h.base i) ∧
      (∀ l ∈ labels, h'.base (base + l) = 0) ∧
      (∀ i, i ≠ 0 → ¬ F i → (∀ l ∈ labels, i ≠ base + l) → h'.check i = h.check i) := by
  obtain ⟨hbm, _⟩ := le_getLast _ _ hs hback
  obtain ⟨q1, q2, q3⟩ := hf back hbm
  obtain ⟨h', e, r⟩ := freeLoop_spec base labels 0 h F H (Or.inl rfl) hs (by intro l hl; omega) hf
  refine ⟨h', ?_, r⟩
  have hp := H.pos
  have a1 : base < h.len := by omega
  have a2 : 0 < h.len := by omega
  simp [freeAll, hback, h1, a1, a2, q3, isSorted_of_lt _ hs, e]

/-- Every node outside the unused list has a positive check. -/
def UsedPos (h : Heap) (F : Nat → Prop) : Prop :=
  ∀ i, 2 ≤ i → i < h.len → ¬ F i → 1 ≤ h.check i

theorem isFree_spec {h F} (U : UsedPos h F) {base} (h1 : 1 ≤ base) : ∀ ls,
    ls.Pairwise (· < ·) → isFree h base ls = true → 2 ≤ h.len →
    ∀ l ∈ ls, 2 ≤ base + l ∧ (F (base + l) ∨ h.len ≤ base + l) := by
  intro ls
  induction ls with
  | nil => intro _ _ _ l hl; simp at hl
  | cons a ls ih =>
    intro hs hf hp l hl
    have hs' := List.pairwise_cons.mp hs
    simp only [isFree] at hf
    by_cases c1 : a = 0 ∧ base = 1
    · simp [c1] at hf
    · rw [if_neg c1] at hf
      by_cases c2 : h.len ≤ base + a
      · rcases List.mem_cons.mp hl with rfl | hm
        · exact ⟨by omega, Or.inr c2⟩
        · have := hs'.1 l hm; exact ⟨by omega, Or.inr (by omega)⟩
      · rw [if_neg c2] at hf
        by_cases c3 : 1 ≤ h.check (base + a)
        · simp [c3] at hf
        · rw [if_neg c3] at hf
          rcases List.mem_cons.mp hl with rfl | hm
          · refine ⟨by omega, Or.inl ?_⟩
            exact Classical.byContradiction fun q => c3 (U _ (by omega) (by omega) q)
          · exact ih hs'.2 hf hp l hm

theorem isFreeP_spec {h F} (U : UsedPos h F) {base parent} (h1 : 1 ≤ base) : ∀ ls,
    ls.Pairwise (· < ·) → isFreeP h parent base ls = true → 2 ≤ h.len →
    ∀ l ∈ ls, 2 ≤ base + l ∧
      (F (base + l) ∨ (base + l < h.len ∧ h.check (base + l) = parent) ∨ h.len ≤ base + l) := by
  intro ls
  induction ls with
  | nil => intro _ _ _ l hl; simp at hl
  | cons a ls ih =>
    intro hs hf hp l hl
    have hs' := List.pairwise_cons.mp hs
    simp only [isFreeP] at hf
    by_cases c1 : a = 0 ∧ base = 1
    · simp [c1] at hf
    · rw [if_neg c1] at hf
      by_cases c2 : h.len ≤ base + a
      · rcases List.mem_cons.mp hl with rfl | hm
        · exact ⟨by omega, Or.inr (Or.inr c2)⟩
        · have := hs'.1 l hm; exact ⟨by omega, Or.inr (Or.inr (by omega))⟩
      · rw [if_neg c2] at hf
        by_cases c3 : 1 ≤ h.check (base + a) ∧ (parent : Int) ≠ h.check (base + a)
        · simp [c3] at hf
        · rw [if_neg c3] at hf
          rcases List.mem_cons.mp hl with rfl | hm
          · refine ⟨by omega, ?_⟩
            by_cases q : F (base + l)
            · exact Or.inl q
            · have := U (base + l) (by omega) (by omega) q
              right; left; omega
          · exact ih hs'.2 hf hp l hm

theorem locateSkip_spec {h F} (H : FL h F) (offset : Nat) : ∀ n idx before,
    (idx = 0 ∨ F idx) → (before = 0 ∨ F before) → (idx ≠ 0 → before < idx) → h.len < n + idx →
    (idx = 0 → 0 < n) →
    ∃ i b, locateSkip offset n h idx before = some (i, b) ∧ (i = 0 ∨ F i) ∧ (b = 0 ∨ F b) ∧
      (i ≠ 0 → b < i ∧ offset < i) := by
  intro n
  induction n with
  | zero =>
    intro idx before hi hb hlt hn h0
    rcases hi with e | e
    · have := h0 e; omega
    · have := H.rng idx e; omega
  | succ n ih =>
    intro idx before hi hb hlt hn _
    by_cases hc : 0 < idx ∧ idx ≤ offset
    · obtain ⟨j, e, hj⟩ := nxt_spec H hi
      have hn0 : 0 < n := by
        rcases hi with e | e
        · omega
        · have := H.rng idx e; omega
      rcases hj with ⟨j0, c0, hk⟩ | ⟨fj, ij, cj, hk⟩
      · obtain ⟨m, rfl⟩ : ∃ m, n = m + 1 := ⟨n - 1, by omega⟩
        refine ⟨0, idx, ?_, Or.inl rfl, hi, by simp⟩
        simp [locateSkip, hc, e, j0]
      · obtain ⟨i, b, e2, r⟩ := ih j idx (Or.inr fj) hi (fun _ => ij) (by omega) (fun _ => hn0)
        exact ⟨i, b, by simp [locateSkip, hc, e, e2], r⟩
    · refine ⟨idx, before, by simp only [locateSkip, if_neg hc], hi, hb, ?_⟩
      intro q
      exact ⟨hlt q, by omega⟩

theorem locateScan_spec {h F} (H : FL h F) (offset : Nat) (labels : List Nat) : ∀ n idx before,
    (idx = 0 ∨ F idx) → (before = 0 ∨ F before) → (idx ≠ 0 → before < idx ∧ offset < idx) →
    h.len < n + idx → (idx = 0 → 0 < n) →
    ∃ i b, locateScan offset labels n h idx before = some (i, b) ∧ (i = 0 ∨ F i) ∧ (b = 0 ∨ F b) ∧
      (i ≠ 0 → b < i ∧ offset < i ∧ isFree h (i - offset) labels = true) := by
  intro n
  induction n with
  | zero =>
    intro idx before hi hb hlt hn h0
    rcases hi with e | e
    · have := h0 e; omega
    · have := H.rng idx e; omega
  | succ n ih =>
    intro idx before hi hb hlt hn _
    by_cases hc : idx ≠ 0 ∧ isFree h (idx - offset) labels = false
    · obtain ⟨j, e, hj⟩ := nxt_spec H hi
      have hn0 : 0 < n := by
        rcases hi with e | e
        · exact absurd e hc.1
        · have := H.rng idx e; omega
      rcases hj with ⟨j0, c0, hk⟩ | ⟨fj, ij, cj, hk⟩
      · obtain ⟨m, rfl⟩ : ∃ m, n = m + 1 := ⟨n - 1, by omega⟩
        refine ⟨0, idx, ?_, Or.inl rfl, hi, by simp⟩
        rw [locateScan, if_pos hc, e, j0]
        simp [locateScan]
      · have := (hlt hc.1)
        obtain ⟨i, b, e2, r⟩ := ih j idx (Or.inr fj) hi (fun _ => ⟨ij, by omega⟩) (by omega)
          (fun _ => hn0)
        refine ⟨i, b, ?_, r⟩
        rw [locateScan, if_pos hc, e]
        exact e2
    · refine ⟨idx, before, by rw [locateScan, if_neg hc], hi, hb, ?_⟩
      intro q
      refine ⟨(hlt q).1, (hlt q).2, ?_⟩
      cases hh : isFree h (idx - offset) labels
      · exact absurd ⟨q, hh⟩ hc
      · rfl

theorem locate_spec {h F} (H : FL h F) (U : UsedPos h F) {labels} (hne : labels ≠ [])
    (hs : labels.Pairwise (· < ·)) :
    ∃ base before, locate h labels = some (base, before) ∧ 1 ≤ base ∧ (before = 0 ∨ F before) ∧
      ∀ l ∈ labels, before < base + l ∧ 2 ≤ base + l ∧ (F (base + l) ∨ h.len ≤ base + l) := by
  have hp := H.pos
  obtain ⟨offset, rest, rfl⟩ : ∃ o r, labels = o :: r := by
    cases labels with
    | nil => exact absurd rfl hne
    | cons o r => exact ⟨o, r, rfl⟩
  have hmin : ∀ l ∈ offset :: rest, offset ≤ l := by
    intro l hl
    rcases List.mem_cons.mp hl with rfl | hm
    · exact Nat.le_refl _
    · have := (List.pairwise_cons.mp hs).1 l hm; omega
  obtain ⟨i0, e0, hi0⟩ := nxt_spec H (i := 0) (Or.inl rfl)
  have hi0' : i0 = 0 ∨ F i0 := by tauto
  obtain ⟨i1, b1, e1, p1, p2, p3⟩ := locateSkip_spec H offset (h.len + 1) i0 0 hi0' (Or.inl rfl)
    (by omega) (by omega) (by omega)
  have main : ∃ i2 b2, (if offset < i1 then locateScan offset (offset :: rest) (h.len + 1) h i1 b1
        else some (0, b1)) = some (i2, b2) ∧ (i2 = 0 ∨ F i2) ∧ (b2 = 0 ∨ F b2) ∧
      (i2 ≠ 0 → b2 < i2 ∧ offset < i2 ∧ isFree h (i2 - offset) (offset :: rest) = true) := by
    by_cases c : offset < i1
    · rw [if_pos c]
      exact locateScan_spec H offset _ (h.len + 1) i1 b1 p1 p2 p3 (by omega) (by omega)
    · rw [if_neg c]
      exact ⟨0, b1, rfl, Or.inl rfl, p2, by simp⟩
  obtain ⟨i2, b2, e2, r1, r2, r3⟩ := main
  have hb2 : b2 < h.len := by
    rcases r2 with q | q
    · omega
    · exact (H.rng _ q).2
  by_cases c : i2 = 0
  · have hb : b2 < max (h.len - offset) 1 + offset := by omega
    refine ⟨max (h.len - offset) 1, b2, ?_, by omega, r2, ?_⟩
    · simp [locate, isSorted_of_lt _ hs, e0, e1, e2, c, hb]
    · intro l hl
      have := hmin l hl
      exact ⟨by omega, by omega, Or.inr (by omega)⟩
  · obtain ⟨s1, s2, s3⟩ := r3 c
    have hb : b2 < i2 - offset + offset := by omega
    refine ⟨i2 - offset, b2, ?_, by omega, r2, ?_⟩
    · simp [locate, isSorted_of_lt _ hs, e0, e1, e2, c, hb]
    · intro l hl
      have := hmin l hl
      have := isFree_spec U (base := i2 - offset) (by omega) _ hs s3 hp l hl
      exact ⟨by omega, this⟩

end Verif.Proof.Trie
