import Verif.Proof.TrieTree

/-!
`add` on the trie heap: in place, at a fresh base, and with relocation.
-/
namespace Verif.Proof.Trie
open Verif.Model.Trie

theorem getLast_some {α} : ∀ {l : List α}, l ≠ [] → ∃ b, l.getLast? = some b
  | [], h => absurd rfl h
  | a :: r, _ => ⟨(a :: r).getLast (by simp), List.getLast?_eq_some_getLast (by simp)⟩

/-- Allocation without moving nodes. -/
theorem pre_alloc {h F} (I : Inv h F) {parent labels nb before back} (up : Used h F parent)
    (hs : labels.Pairwise (· < ·)) (hback : labels.getLast? = some back)
    (h256 : ∀ l ∈ labels, l ≤ 256)
    (h1 : 1 ≤ nb) (hb : before = 0 ∨ F before)
    (hold : ∀ l j, child h parent l = some j → j = nb + l)
    (hlt : ∀ l ∈ labels, before < nb + l) (h2 : ∀ l ∈ labels, 2 ≤ nb + l)
    (hf : ∀ l ∈ labels, child h parent l = some (nb + l) ∨ F (nb + l) ∨ h.len ≤ nb + l) :
    ∃ h' F', allocate h nb labels before = some h' ∧ nb + back < h'.len ∧
      Pre h F h' F' parent labels nb id := by
  have hp1 := (up.lt I.fl).1
  obtain ⟨h', e, H', ll, lb, b', c', z'⟩ := allocate_spec I.fl h1 hs hb hback hlt h2 (by
    intro l hl
    rcases hf l hl with q | q | q
    · have := I.child_used up q
      have := this.1.lt I.fl
      right; left; omega
    · exact Or.inl q
    · exact Or.inr (Or.inr q))
  have hp := I.fl.pos
  refine ⟨h', _, e, lb, ⟨H', ?_, ?_, ?_, ?_, ?_, ?_, ?_, ?_, h1, by omega, ll, ?_, ?_, ?_, ?_, ?_⟩⟩
  · rw [c' 1 (by omega) (fun q => by have := I.fl.rng 1 q; omega) (by omega)]; exact I.root
  · rintro i ⟨q | q, _⟩
    · have := I.fl.rng i q
      rw [b' i (by omega), if_neg (by omega)]; exact I.fb i q
    · rw [b' i (by omega), if_pos q.1]
  · rintro i (q | ⟨q1, q2, q3⟩)
    · exact Or.inl q
    · refine Or.inr ⟨q1, by simp only [id]; omega, ?_⟩
      rintro ⟨w | w, _⟩
      · exact q3 w
      · simp only [id] at w; omega
  · intro i j _ _ q; exact q
  · intro i _ _; rfl
  · exact hold
  · intro i p u i2 c
    have := u.lt I.fl
    show h'.check i = p
    rw [c' i (by omega) (u.nf I.fl) (by omega)]; exact c
  · intro i u _
    have := u.lt I.fl
    show h'.base i = _
    rw [b' i (by omega), if_neg (by omega)]
  · intro l hl
    obtain ⟨_, hk⟩ := le_getLast _ _ hs hback
    have := hk l hl
    exact ⟨h256 l hl, h2 l hl, by omega, fun q => q.2 l hl rfl⟩
  · intro l hl hn
    obtain ⟨_, hk⟩ := le_getLast _ _ hs hback
    have := hk l hl
    rcases hf l hl with q | q | q
    · rw [hn] at q; simp at q
    · have := I.fl.rng _ q
      rw [b' _ (by omega), if_neg (by omega)]; exact I.fb _ q
    · rw [b' _ (by omega), if_pos q]
  · rintro i (q | ⟨q1, q2, q3⟩)
    · exact Or.inl ⟨1, used_one h F, q.symm⟩
    · by_cases hi : i < h.len ∧ ¬ F i
      · exact Or.inl ⟨i, Or.inr ⟨q1, hi.1, hi.2⟩, rfl⟩
      · right
        have hfi : F i ∨ h.len ≤ i := by
          by_cases w : F i
          · exact Or.inl w
          · right
            have : ¬ i < h.len := fun v => hi ⟨v, w⟩
            omega
        have hm : ∃ l ∈ labels, i = nb + l := by
          apply Classical.byContradiction
          intro w
          apply q3
          refine ⟨hfi.imp id fun v => ⟨v, q2⟩, fun l hl v => w ⟨l, hl, v⟩⟩
        obtain ⟨l, hl, rfl⟩ := hm
        refine ⟨l, hl, ?_, rfl⟩
        cases hc : child h parent l with
        | none => rfl
        | some j =>
          have := hold l j hc
          subst this
          have u := (I.child_used up hc).1
          rcases hfi with w | w
          · exact absurd w (u.nf I.fl)
          · have := u.lt I.fl; omega
  · intro l hl hn i u q
    have q : i = nb + l := q
    subst q
    rcases hf l hl with w | w | w
    · rw [hn] at w; simp at w
    · exact u.nf I.fl w
    · have := u.lt I.fl; omega
  · rw [b' 0 (by omega), if_neg (by omega)]

theorem fixChecks_spec (old new : Nat) (hne : old ≠ new) : ∀ n i (h : Heap), i + n ≤ h.len →
    ∃ h', fixChecks old new n i h = some h' ∧ h'.len = h.len ∧ h'.base = h.base ∧
      ∀ j, h'.check j = if i ≤ j ∧ j < i + n ∧ h.check j = (old : Int) then (new : Int)
        else h.check j := by
  intro n
  induction n with
  | zero =>
    intro i h _
    refine ⟨h, rfl, rfl, rfl, ?_⟩
    intro j; rw [if_neg (by omega)]
  | succ n ih =>
    intro i h hl
    have hi : i < h.len := by omega
    by_cases hc : h.check i = (old : Int)
    · obtain ⟨h', e, l', b', c'⟩ := ih (i + 1) { h with check := upd h.check i (new : Int) }
        (by show _ ≤ h.len; omega)
      refine ⟨h', by simp [fixChecks, rdC, hi, hc, wrC, e], l', b', ?_⟩
      intro j
      rw [c' j]
      by_cases hj : j = i
      · subst hj
        rw [if_neg (by omega), if_pos (by omega)]
        simp [upd]
      · have hu : upd h.check i (new : Int) j = h.check j := by rw [upd, if_neg hj]
        show (if i + 1 ≤ j ∧ j < i + 1 + n ∧ upd h.check i (new : Int) j = (old : Int) then (new : Int)
          else upd h.check i (new : Int) j) = _
        rw [hu]
        by_cases hq : i + 1 ≤ j ∧ j < i + 1 + n ∧ h.check j = (old : Int)
        · rw [if_pos hq, if_pos (by omega)]
        · rw [if_neg hq, if_neg (by omega)]
    · obtain ⟨h', e, l', b', c'⟩ := ih (i + 1) h (by omega)
      refine ⟨h', by simp [fixChecks, rdC, hi, hc, e], l', b', ?_⟩
      intro j
      rw [c' j]
      by_cases hj : j = i
      · subst hj
        rw [if_neg (by omega), if_neg (by omega)]
      · by_cases hq : i + 1 ≤ j ∧ j < i + 1 + n ∧ h.check j = (old : Int)
        · rw [if_pos hq, if_pos (by omega)]
        · rw [if_neg hq, if_neg (by omega)]

/-- One child of the child loop of `relocate`. -/
theorem moveOne_spec {h : Heap} {from_ to l parent : Nat}
    (d1 : from_ + l < h.len) (d1' : to + l < h.len) (d1c : h.check (from_ + l) = (parent : Int))
    (d2 : to + l ≠ from_ + l)
    (d3 : ∀ i, i < h.len → h.check i = ((from_ + l : Nat) : Int) →
      ∃ b : Nat, h.base (from_ + l) = b ∧ 1 ≤ b ∧ b ≤ i ∧ i ≤ b + 256)
    (d4 : parent ≠ from_ + l) :
    ∃ h', (∀ ls, moveLoop from_ to (l :: ls) h = moveLoop from_ to ls h') ∧
      h'.len = h.len ∧ h'.base = upd h.base (to + l) (h.base (from_ + l)) ∧
      h'.check (to + l) = (parent : Int) ∧
      ∀ i, i < h.len → i ≠ to + l → h'.check i =
        if h.check i = ((from_ + l : Nat) : Int) then ((to + l : Nat) : Int) else h.check i := by
  have e0 : ¬ (from_ + l = to + l) := fun q => d2 q.symm
  let h1 : Heap := ⟨h.len, upd h.base (to + l) (h.base (from_ + l)),
    upd h.check (to + l) (parent : Int)⟩
  have ebase : h1.base (from_ + l) = h.base (from_ + l) := by
    show upd _ _ _ _ = _
    rw [upd, if_neg e0]
  by_cases hb : 1 ≤ h.base (from_ + l)
  · have hw : (h.base (from_ + l)).toNat + window h1 (h.base (from_ + l)).toNat ≤ h1.len ∨
        window h1 (h.base (from_ + l)).toNat = 0 := by
      show _ + (min _ (h.len - 1) + 1 - _) ≤ h.len ∨ min _ (h.len - 1) + 1 - _ = 0
      omega
    have hfix : ∃ h', fixChecks (from_ + l) (to + l) (window h1 (h.base (from_ + l)).toNat)
        (h.base (from_ + l)).toNat h1 = some h' ∧ h'.len = h1.len ∧ h'.base = h1.base ∧
        ∀ j, h'.check j = if (h.base (from_ + l)).toNat ≤ j ∧
          j < (h.base (from_ + l)).toNat + window h1 (h.base (from_ + l)).toNat ∧
          h1.check j = ((from_ + l : Nat) : Int) then ((to + l : Nat) : Int) else h1.check j := by
      rcases hw with hw | hw
      · exact fixChecks_spec (from_ + l) (to + l) e0 _ _ h1 hw
      · refine ⟨h1, by rw [hw]; rfl, rfl, rfl, ?_⟩
        intro j; rw [if_neg (by omega)]
    obtain ⟨h', e, l', b', c'⟩ := hfix
    refine ⟨h', ?_, l', b', ?_, ?_⟩
    · intro ls
      simp only [moveLoop, rdB, rdC, wrB, wrC, if_pos d1, if_pos d1', Option.bind_some, d1c]
      have : (if from_ + l < h1.len then some (h1.base (from_ + l)) else none) = some (h.base (from_ + l)) := by
        rw [ebase, if_pos d1]
      have ee : upd h.base (to + l) (h.base (from_ + l)) (from_ + l) = h.base (from_ + l) := ebase
      rw [ee, if_pos hb]
      show (fixChecks _ _ (window h1 _) _ h1).bind _ = _
      rw [e]; rfl
    · rw [c' (to + l)]
      have : h1.check (to + l) = (parent : Int) := by
        show upd _ _ _ _ = _
        rw [upd, if_pos rfl]
      rw [this, if_neg (by omega)]
    · intro i hi hne
      have hci : h1.check i = h.check i := by
        show upd _ _ _ _ = _
        rw [upd, if_neg hne]
      rw [c' i, hci]
      by_cases hq : h.check i = ((from_ + l : Nat) : Int)
      · rw [if_pos hq]
        obtain ⟨b, eb, b1, b2, b3⟩ := d3 i hi hq
        have et : (h.base (from_ + l)).toNat = b := by omega
        rw [et, if_pos]
        refine ⟨b2, ?_, hq⟩
        show i < b + (min (b + 256) (h.len - 1) + 1 - b)
        omega
      · rw [if_neg hq, if_neg (fun w => hq w.2.2)]
  · refine ⟨h1, ?_, rfl, rfl, ?_, ?_⟩
    · intro ls
      simp only [moveLoop, rdB, rdC, wrB, wrC, if_pos d1, if_pos d1', Option.bind_some, d1c]
      have ee : upd h.base (to + l) (h.base (from_ + l)) (from_ + l) = h.base (from_ + l) := ebase
      rw [ee, if_neg hb]; rfl
    · show upd _ _ _ _ = _
      rw [upd, if_pos rfl]
    · intro i hi hne
      have hq : h.check i ≠ ((from_ + l : Nat) : Int) := by
        intro hq
        obtain ⟨b, eb, b1, _⟩ := d3 i hi hq
        omega
      rw [if_neg hq]
      show upd _ _ _ _ = _
      rw [upd, if_neg hne]

theorem moveLoop_spec (from_ to parent : Nat) : ∀ ls (h : Heap), ls.Nodup →
    (∀ l ∈ ls, from_ + l < h.len ∧ to + l < h.len ∧ h.check (from_ + l) = (parent : Int) ∧
      h.check (to + l) ≤ 0 ∧ parent ≠ from_ + l ∧ 1 ≤ from_ + l) →
    (∀ l ∈ ls, ∀ m ∈ ls, to + l ≠ from_ + m) →
    (∀ l ∈ ls, ∀ i, i < h.len → h.check i = ((from_ + l : Nat) : Int) →
      ∃ b : Nat, h.base (from_ + l) = b ∧ 1 ≤ b ∧ b ≤ i ∧ i ≤ b + 256) →
    ∃ h', moveLoop from_ to ls h = some h' ∧ h'.len = h.len ∧
      (∀ l ∈ ls, h'.base (to + l) = h.base (from_ + l)) ∧
      (∀ i, (∀ l ∈ ls, i ≠ to + l) → h'.base i = h.base i) ∧
      (∀ l ∈ ls, h'.check (to + l) = (parent : Int)) ∧
      (∀ i, i < h.len → (∀ l ∈ ls, i ≠ to + l) →
        (∀ l ∈ ls, h.check i = ((from_ + l : Nat) : Int) → h'.check i = ((to + l : Nat) : Int)) ∧
        ((∀ l ∈ ls, h.check i ≠ ((from_ + l : Nat) : Int)) → h'.check i = h.check i)) := by
  intro ls
  induction ls with
  | nil =>
    intro h _ _ _ _
    exact ⟨h, rfl, rfl, by simp, fun _ _ => rfl, by simp, fun _ _ _ => ⟨by simp, fun _ => rfl⟩⟩
  | cons a ls ih =>
    intro h nd D1 D2 D3
    have nd' := List.nodup_cons.mp nd
    obtain ⟨a1, a2, a3, a4, a5, a6⟩ := D1 a (by simp)
    obtain ⟨h1, e1, l1, b1, ct, ci⟩ := moveOne_spec a1 a2 a3 (D2 a (by simp) a (by simp))
      (D3 a (by simp)) a5
    have hma : ∀ m ∈ ls, m ≠ a := by rintro m hm rfl; exact nd'.1 hm
    have hbase : ∀ m ∈ ls, h1.base (from_ + m) = h.base (from_ + m) := by
      intro m hm
      rw [b1, upd, if_neg]
      exact fun q => D2 a (by simp) m (by simp [hm]) q.symm
    have hcfrom : ∀ m ∈ ls, h1.check (from_ + m) = (parent : Int) := by
      intro m hm
      obtain ⟨m1, m2, m3, m4, m5, m6⟩ := D1 m (by simp [hm])
      rw [ci _ m1 (fun q => D2 a (by simp) m (by simp [hm]) q.symm), m3, if_neg (by omega)]
    obtain ⟨h', e', l', t1, t2, t3, t4⟩ := ih h1 nd'.2 (by
        intro m hm
        obtain ⟨m1, m2, m3, m4, m5, m6⟩ := D1 m (by simp [hm])
        have := hma m hm
        refine ⟨by omega, by omega, hcfrom m hm, ?_, m5, m6⟩
        rw [ci _ m2 (by omega), if_neg (by omega)]; exact m4)
      (fun l hl m hm => D2 l (by simp [hl]) m (by simp [hm])) (by
        intro m hm i hi hc
        rw [hbase m hm]
        have hia : i ≠ to + a := by
          rintro rfl
          obtain ⟨m1, m2, m3, m4, m5, m6⟩ := D1 m (by simp [hm])
          rw [ct] at hc; omega
        rw [ci i (by omega) hia] at hc
        by_cases hq : h.check i = ((from_ + a : Nat) : Int)
        · rw [if_pos hq] at hc
          have := D2 a (by simp) m (by simp [hm])
          omega
        · rw [if_neg hq] at hc
          exact D3 m (by simp [hm]) i (by omega) hc)
    refine ⟨h', by rw [e1]; exact e', by omega, ?_, ?_, ?_, ?_⟩
    · intro m hm
      rcases List.mem_cons.mp hm with rfl | hm
      · rw [t2 _ (by intro k hk; have := hma k hk; omega), b1, upd, if_pos rfl]
      · rw [t1 m hm, hbase m hm]
    · intro i hi
      rw [t2 i (fun m hm => hi m (by simp [hm])), b1, upd, if_neg (hi a (by simp))]
    · intro m hm
      rcases List.mem_cons.mp hm with rfl | hm
      · rw [(t4 (to + m) (by omega) (by intro k hk; have := hma k hk; omega)).2, ct]
        intro k hk
        obtain ⟨m1, m2, m3, m4, m5, m6⟩ := D1 k (by simp [hk])
        rw [ct]; omega
      · exact t3 m hm
    · intro i hi hne
      have hia := hne a (by simp)
      have hc1 := ci i hi hia
      obtain ⟨u1, u2⟩ := t4 i (by omega) (fun m hm => hne m (by simp [hm]))
      constructor
      · intro m hm hc
        rcases List.mem_cons.mp hm with rfl | hm
        · rw [if_pos hc] at hc1
          rw [u2, hc1]
          intro k hk
          rw [hc1]
          have := D2 m (by simp) k (by simp [hk])
          omega
        · apply u1 m hm
          rw [hc1, if_neg]
          · exact hc
          · have := hma m hm; omega
      · intro hc
        rw [if_neg (hc a (by simp))] at hc1
        rw [u2, hc1]
        intro k hk
        rw [hc1]; exact hc k (by simp [hk])

/-- `std::set_union` on strictly sorted lists. -/
theorem setUnion_spec : ∀ n (xs ys : List Nat), xs.length + ys.length = n →
    xs.Pairwise (· < ·) → ys.Pairwise (· < ·) →
    (∀ z, z ∈ setUnion xs ys ↔ z ∈ xs ∨ z ∈ ys) ∧ (setUnion xs ys).Pairwise (· < ·) := by
  intro n
  induction n using Nat.strongRecOn with
  | _ n ih =>
    intro xs ys hn hx hy
    match xs, ys with
    | [], ys => rw [setUnion]; exact ⟨by simp, hy⟩
    | x :: xs, [] => rw [setUnion]; exact ⟨by simp, hx⟩
    | x :: xs, y :: ys =>
      have hx' := List.pairwise_cons.mp hx
      have hy' := List.pairwise_cons.mp hy
      simp only [List.length_cons] at hn
      rw [setUnion]
      by_cases c1 : x < y
      · rw [if_pos c1]
        obtain ⟨m, p⟩ := ih (xs.length + (ys.length + 1)) (by omega) xs (y :: ys) (by simp) hx'.2 hy
        refine ⟨?_, List.pairwise_cons.mpr ⟨?_, p⟩⟩
        · intro z; simp only [List.mem_cons, m]; tauto
        · intro z hz
          rcases (m z).mp hz with q | q
          · exact hx'.1 z q
          · rcases List.mem_cons.mp q with rfl | q
            · exact c1
            · have := hy'.1 z q; omega
      · rw [if_neg c1]
        by_cases c2 : y < x
        · rw [if_pos c2]
          obtain ⟨m, p⟩ := ih (xs.length + 1 + ys.length) (by omega) (x :: xs) ys (by simp) hx hy'.2
          refine ⟨?_, List.pairwise_cons.mpr ⟨?_, p⟩⟩
          · intro z; simp only [List.mem_cons, m]; tauto
          · intro z hz
            rcases (m z).mp hz with q | q
            · rcases List.mem_cons.mp q with rfl | q
              · exact c2
              · have := hx'.1 z q; omega
            · exact hy'.1 z q
        · rw [if_neg c2]
          have : x = y := by omega
          subst this
          obtain ⟨m, p⟩ := ih (xs.length + ys.length) (by omega) xs ys rfl hx'.2 hy'.2
          refine ⟨?_, List.pairwise_cons.mpr ⟨?_, p⟩⟩
          · intro z; simp only [List.mem_cons, m]; tauto
          · intro z hz
            rcases (m z).mp hz with q | q
            · exact hx'.1 z q
            · exact hy'.1 z q

theorem length_le_of_sorted : ∀ (l : List Nat) (a n : Nat), l.Pairwise (· < ·) →
    (∀ x ∈ l, a ≤ x ∧ x < a + n) → l.length ≤ n
  | [], _, _, _, _ => Nat.zero_le _
  | x :: r, a, n, h, hb => by
    have h' := List.pairwise_cons.mp h
    have hx := hb x (by simp)
    have := length_le_of_sorted r (x + 1) (a + n - (x + 1)) h'.2 (by
      intro y hy
      have := h'.1 y hy
      have := hb y (by simp [hy])
      omega)
    simp only [List.length_cons]; omega

theorem childLabels_spec {h F} (I : Inv h F) {parent from_ : Nat} (up : Used h F parent)
    (hb : h.base parent = (from_ : Int)) (h1 : 1 ≤ from_) :
    (childLabels h parent from_ (window h from_)).Pairwise (· < ·) ∧
    ∀ l, l ∈ childLabels h parent from_ (window h from_) ↔ child h parent l = some (from_ + l) := by
  refine ⟨List.Pairwise.filter _ List.pairwise_lt_range, ?_⟩
  intro l
  have hp := (up.lt I.fl).1
  simp only [childLabels, List.mem_filter, List.mem_range, decide_eq_true_eq]
  rw [child_eq_some]
  unfold window nullValue
  constructor
  · rintro ⟨q1, q2⟩
    exact ⟨from_, hb, h1, by omega, by have := I.fl.pos; omega, q2, rfl⟩
  · rintro ⟨b, e, b1, c1, c2, c3, c4⟩
    have : b = from_ := by omega
    subst this
    exact ⟨by omega, c3⟩

/-- Allocation with relocation of the children of `parent`. -/
theorem pre_reloc {h F} (I : Inv h F) {parent : Nat} {labels : List Nat} {from_ back : Nat} (up : Used h F parent)
    (hs : labels.Pairwise (· < ·)) (hback : labels.getLast? = some back)
    (h256 : ∀ l ∈ labels, l ≤ 256) (hbase : h.base parent = (from_ : Int)) (h1 : 1 ≤ from_)
    (hch : ∃ l j, child h parent l = some j) :
    ∃ h' F' nb φ, relocate h parent from_ labels = some (h', nb) ∧ nb + back < h'.len ∧
      Pre h F h' F' parent labels nb φ := by
  have hpl := up.lt I.fl
  have hp := I.fl.pos
  obtain ⟨chs, chm⟩ := childLabels_spec I up hbase h1
  generalize hcdef : childLabels h parent from_ (window h from_) = ch at chs chm
  have chj : ∀ l j, child h parent l = some j → j = from_ + l ∧ l ∈ ch := by
    intro l j e
    have : j = from_ + l := by
      obtain ⟨b, e1, _, _, _, _, q⟩ := child_eq_some.mp e
      omega
    subst this
    exact ⟨rfl, (chm l).mpr e⟩
  have chne : ch ≠ [] := by
    obtain ⟨l, j, e⟩ := hch
    intro q; have := (chj l j e).2; rw [q] at this; simp at this
  have chu : ∀ l ∈ ch, Used h F (from_ + l) ∧ 2 ≤ from_ + l ∧ h.check (from_ + l) = (parent : Int) :=
    fun l hl => I.child_used up ((chm l).mp hl)
  have ch256 : ∀ l ∈ ch, l ≤ 256 := by
    intro l hl; obtain ⟨_, _, _, q, _⟩ := child_eq_some.mp ((chm l).mp hl); exact q
  have hnp : ∀ l ∈ ch, parent ≠ from_ + l := by
    intro l hl q
    exact I.not_self (l := l) up (by rw [(chm l).mp hl, ← q])
  obtain ⟨allm, alls⟩ := setUnion_spec _ labels ch rfl hs chs
  generalize haldef : setUnion labels ch = all at allm alls
  have allne : all ≠ [] := by
    intro q
    obtain ⟨hm, _⟩ := le_getLast _ _ hs hback
    have := (allm back).mpr (Or.inl hm)
    rw [q] at this; simp at this
  have all256 : ∀ l ∈ all, l ≤ 256 := by
    intro l hl
    rcases (allm l).mp hl with q | q
    · exact h256 l q
    · exact ch256 l q
  have alllen : all.length ≤ 257 := length_le_of_sorted all 0 257 alls (by
    intro x hx; have := all256 x hx; omega)
  obtain ⟨aback, haback⟩ := getLast_some allne
  obtain ⟨to, before, eloc, t1, tb, tf⟩ := locate_spec I.fl I.usedPos allne alls
  obtain ⟨h1', ealloc, H1, ll, lb, b1, c1, z1⟩ := allocate_spec I.fl t1 alls tb haback
    (fun l hl => (tf l hl).1) (fun l hl => (tf l hl).2.1)
    (fun l hl => (tf l hl).2.2.imp id Or.inr)
  generalize hF1 : (fun i => (F i ∨ (h.len ≤ i ∧ i < h1'.len)) ∧ ∀ l ∈ all, i ≠ to + l) = F1 at H1
  have F1e : ∀ i, F1 i ↔ ((F i ∨ (h.len ≤ i ∧ i < h1'.len)) ∧ ∀ l ∈ all, i ≠ to + l) := by
    intro i; rw [← hF1]
  obtain ⟨_, hablast⟩ := le_getLast _ _ alls haback
  have tol : ∀ l ∈ all, to + l < h1'.len := by
    intro l hl; have := hablast l hl; omega
  have tonu : ∀ l ∈ all, ¬ Used h F (to + l) := by
    intro l hl u
    rcases (tf l hl).2.2 with q | q
    · exact u.nf I.fl q
    · have := u.lt I.fl; omega
  have chall : ∀ l ∈ ch, l ∈ all := fun l hl => (allm l).mpr (Or.inr hl)
  have laball : ∀ l ∈ labels, l ∈ all := fun l hl => (allm l).mpr (Or.inl hl)
  have uc1 : ∀ i, Used h F i → h1'.check i = h.check i := by
    intro i u
    have := u.lt I.fl
    exact c1 i (by omega) (u.nf I.fl) this.2
  have ub1 : ∀ i, i < h.len → h1'.base i = h.base i := by
    intro i hi
    rw [b1 i (by omega), if_neg (by omega)]
  have cls : ∀ i, 1 ≤ i → i < h1'.len → Used h F i ∨ F1 i ∨ ∃ l ∈ all, i = to + l := by
    intro i hi1 hi2
    by_cases w : ∃ l ∈ all, i = to + l
    · exact Or.inr (Or.inr w)
    · by_cases v : F i ∨ h.len ≤ i
      · right; left
        rw [F1e]
        exact ⟨v.imp id fun q => ⟨q, hi2⟩, fun l hl q => w ⟨l, hl, q⟩⟩
      · left
        by_cases i1 : i = 1
        · exact Or.inl i1
        · exact Or.inr ⟨by omega, by omega, fun q => v (Or.inl q)⟩
  have usedNF1 : ∀ i, Used h F i → ¬ F1 i := by
    intro i u q
    rw [F1e] at q
    rcases q.1 with w | w
    · exact u.nf I.fl w
    · have := u.lt I.fl; omega
  -- nodes with positive check after allocation are old nodes
  have posOld : ∀ i, i < h1'.len → 1 ≤ h1'.check i → Used h F i ∧ 2 ≤ i := by
    intro i hi hc
    have i0 : i ≠ 0 := by
      rintro rfl; have := H1.le0 (Or.inl rfl); omega
    rcases cls i (by omega) hi with q | q | ⟨l, hl, q⟩
    · refine ⟨q, ?_⟩
      have : i ≠ 1 := by
        rintro rfl; rw [uc1 1 q, I.root] at hc; omega
      omega
    · have := H1.le0 (Or.inr q); omega
    · have := z1 l hl (tf l hl).2.2
      rw [q] at hc; omega
  obtain ⟨h2, e2, l2, m1, m2, m3, m4⟩ := moveLoop_spec from_ to parent ch h1'
    (List.Pairwise.imp (fun h => Nat.ne_of_lt h) chs) (by
      intro l hl
      obtain ⟨u1, u2, u3⟩ := chu l hl
      have := u1.lt I.fl
      refine ⟨by omega, tol l (chall l hl), by rw [uc1 _ u1]; exact u3, ?_, hnp l hl, by omega⟩
      have := z1 l (chall l hl) (tf l (chall l hl)).2.2
      omega)
    (by
      intro l hl m hm q
      exact tonu l (chall l hl) (q ▸ (chu m hm).1))
    (by
      intro l hl i hi hc
      obtain ⟨v1, v2, v3⟩ := chu l hl
      obtain ⟨u, i2⟩ := posOld i hi (by omega)
      rw [uc1 i u] at hc
      have hil := u.lt I.fl
      obtain ⟨m, hm⟩ := I.child_of_check i2 hil.2 (by omega) hc
      obtain ⟨b, q1, q2, q3, q4, q5, q6⟩ := child_eq_some.mp hm
      refine ⟨b, ?_, q2, by omega, by omega⟩
      rw [ub1 _ (v1.lt I.fl).2]; exact q1)
  have hpar2 : parent < h2.len := by omega
  let h3 : Heap := { h2 with base := upd h2.base parent (to : Int) }
  have H3 : FL h3 F1 := by
    refine H1.frame (by show h2.len = _; exact l2) ?_
    intro i hi
    show h2.check i = _
    have hil : i < h1'.len := by
      rcases hi with q | q
      · omega
      · exact (H1.rng i q).2
    have hle := H1.le0 hi
    refine (m4 i hil ?_).2 ?_
    · intro l hl q
      rcases hi with w | w
      · have := (tf l (chall l hl)).2.1; omega
      · rw [F1e] at w; exact w.2 l (chall l hl) q
    · intro l hl; have := (chu l hl).2.1; omega
  obtain ⟨cback, hcback⟩ := getLast_some chne
  obtain ⟨h4, e4, H4, l4, f1, f2, f3⟩ := freeAll_spec H3 h1 chs hcback (by
    intro l hl
    obtain ⟨u1, u2, u3⟩ := chu l hl
    refine ⟨usedNF1 _ u1, u2, ?_⟩
    have := u1.lt I.fl
    show _ < h2.len
    omega)
  have l4' : h4.len = h1'.len := by rw [l4]; exact l2
  have tofrom : ∀ l ∈ all, ∀ m ∈ ch, to + l ≠ from_ + m :=
    fun l hl m hm q => tonu l hl (q ▸ (chu m hm).1)
  have topar : ∀ l ∈ all, to + l ≠ parent := fun l hl q => tonu l hl (q ▸ up)
  -- bases and checks of the result
  have B_to : ∀ l ∈ ch, h4.base (to + l) = h.base (from_ + l) := by
    intro l hl
    rw [f1 _ (tofrom l (chall l hl))]
    show upd _ _ _ _ = _
    rw [upd, if_neg (topar l (chall l hl)), m1 l hl, ub1 _ ((chu l hl).1.lt I.fl).2]
  have B_old : ∀ i, i < h1'.len → i ≠ parent → (∀ l ∈ ch, i ≠ from_ + l) → (∀ l ∈ ch, i ≠ to + l) →
      h4.base i = if h.len ≤ i then 0 else h.base i := by
    intro i hi hip hf ht
    rw [f1 i hf]
    show upd _ _ _ _ = _
    rw [upd, if_neg hip, m2 i ht, b1 i hi]
  have C_to : ∀ l ∈ ch, h4.check (to + l) = (parent : Int) := by
    intro l hl
    have := (tf l (chall l hl)).2.1
    rw [f3 _ (by omega) (fun q => ((F1e _).mp q).2 l (chall l hl) rfl) (tofrom l (chall l hl))]
    exact m3 l hl
  have unotto : ∀ i, Used h F i → ∀ l ∈ all, i ≠ to + l := fun i u l hl q => tonu l hl (q ▸ u)
  have C_old : ∀ i, Used h F i → (∀ l ∈ ch, i ≠ from_ + l) →
      (∀ l ∈ ch, h.check i = ((from_ + l : Nat) : Int) → h4.check i = ((to + l : Nat) : Int)) ∧
      ((∀ l ∈ ch, h.check i ≠ ((from_ + l : Nat) : Int)) → h4.check i = h.check i) := by
    intro i u hf
    have hil := u.lt I.fl
    have e : h4.check i = h2.check i := f3 i (by omega) (usedNF1 i u) hf
    rw [e]
    have := m4 i (by omega) (fun l hl => unotto i u l (chall l hl))
    rw [uc1 i u] at this
    exact this
  let φ : Nat → Nat := fun i => if h.check i = (parent : Int) then to + (i - from_) else i
  have isch : ∀ i, Used h F i → h.check i = (parent : Int) → ∃ l ∈ ch, i = from_ + l := by
    intro i u hc
    have hil := u.lt I.fl
    have i2 : 2 ≤ i := by
      have : i ≠ 1 := by rintro rfl; rw [I.root] at hc; omega
      omega
    obtain ⟨l, e⟩ := I.child_of_check i2 hil.2 hpl.1 hc
    exact ⟨l, (chj l i e).2, (chj l i e).1⟩
  have φch : ∀ l ∈ ch, φ (from_ + l) = to + l := by
    intro l hl
    show (if _ then _ else _) = _
    rw [if_pos (chu l hl).2.2]; omega
  have φold : ∀ i, Used h F i → (∀ l ∈ ch, i ≠ from_ + l) → φ i = i := by
    intro i u hf
    show (if _ then _ else _) = _
    rw [if_neg]
    intro q
    obtain ⟨l, hl, e⟩ := isch i u q
    exact hf l hl e
  have dich : ∀ i, Used h F i → (∃ l ∈ ch, i = from_ + l) ∨ (∀ l ∈ ch, i ≠ from_ + l) := by
    intro i _
    by_cases w : ∃ l ∈ ch, i = from_ + l
    · exact Or.inl w
    · exact Or.inr fun l hl q => w ⟨l, hl, q⟩
  refine ⟨h4, _, to, φ, ?_, ?_, ⟨H4, ?_, ?_, ?_, ?_, ?_, ?_, ?_, ?_, t1, by omega, by omega, ?_, ?_, ?_, ?_, ?_⟩⟩
  · have hfl : from_ < h.len := by have := I.bl parent up; omega
    simp only [relocate, hcdef, haldef]
    rw [if_pos ⟨hpl.1, hpl.2, h1, hfl⟩, if_pos alllen, eloc]
    simp only [Option.bind_some]
    rw [ealloc]; simp only [Option.bind_some]
    rw [e2]; simp only [Option.bind_some, wrB, if_pos hpar2]
    show (freeAll h3 _ _).bind _ = _
    rw [e4]; rfl
  · obtain ⟨hm, _⟩ := le_getLast _ _ hs hback
    have := tol back (laball back hm); omega
  · have u1 := used_one h F
    have hf : ∀ l ∈ ch, (1 : Nat) ≠ from_ + l := fun l hl => by have := (chu l hl).2.1; omega
    have := (C_old 1 u1 hf).2 (by intro l hl; rw [I.root]; have := (chu l hl).2.1; omega)
    rw [this, I.root]
  · rintro i (q | ⟨l, hl, rfl⟩)
    · have hr := H1.rng i q
      have q' := (F1e i).mp q
      have hip : i ≠ parent := by rintro rfl; exact usedNF1 _ up q
      rw [B_old i hr.2 hip (fun l hl w => usedNF1 _ (chu l hl).1 (w ▸ q))
        (fun l hl => q'.2 l (chall l hl))]
      by_cases w : h.len ≤ i
      · rw [if_pos w]
      · rw [if_neg w]
        rcases q'.1 with v | v
        · exact I.fb i v
        · omega
    · exact f2 l hl
  · intro i u
    rcases dich i u with ⟨l, hl, rfl⟩ | hf
    · rw [φch l hl]
      refine Or.inr ⟨(tf l (chall l hl)).2.1, by have := tol l (chall l hl); omega, ?_⟩
      rintro (q | ⟨m, hm, q⟩)
      · exact ((F1e _).mp q).2 l (chall l hl) rfl
      · exact tofrom l (chall l hl) m hm q
    · rw [φold i u hf]
      have hil := u.lt I.fl
      by_cases i1 : i = 1
      · exact Or.inl i1
      · refine Or.inr ⟨by omega, by omega, ?_⟩
        rintro (q | ⟨m, hm, q⟩)
        · exact usedNF1 i u q
        · exact hf m hm q
  · intro i j ui uj e
    rcases dich i ui with ⟨l, hl, rfl⟩ | hf <;> rcases dich j uj with ⟨m, hm, rfl⟩ | hg
    · rw [φch l hl, φch m hm] at e; omega
    · rw [φch l hl, φold j uj hg] at e
      exact absurd (e ▸ uj) (tonu l (chall l hl))
    · rw [φch m hm, φold i ui hf] at e
      exact absurd (e ▸ ui) (tonu m (chall m hm))
    · rw [φold i ui hf, φold j uj hg] at e; exact e
  · intro i u hn
    refine φold i u fun l hl q => hn l ?_
    rw [(chm l).mp hl, q]
  · intro l j e
    obtain ⟨rfl, hl⟩ := chj l j e
    exact φch l hl
  · intro i p u i2 hc
    rcases dich i u with ⟨l, hl, rfl⟩ | hf
    · have : p = parent := by have := (chu l hl).2.2; omega
      subst this
      rw [φch l hl, C_to l hl, φold p up (fun m hm => hnp m hm)]
    · rw [φold i u hf]
      obtain ⟨p', l', upp, hcp, _⟩ := I.par_child u i2
      have hpp : p' = p := by omega
      rw [hpp] at upp
      rcases dich p upp with ⟨l, hl, rfl⟩ | hg
      · rw [φch l hl]; exact (C_old i u hf).1 l hl hc
      · rw [φold p upp hg, (C_old i u hf).2, hc]
        intro l hl q
        exact hg l hl (by omega)
  · intro i u hne
    rcases dich i u with ⟨l, hl, rfl⟩ | hf
    · rw [φch l hl, B_to l hl]
    · have hil := u.lt I.fl
      rw [φold i u hf, B_old i (by omega) hne hf (fun l hl => unotto i u l (chall l hl)),
        if_neg (by omega)]
  · intro l hl
    have hl' := laball l hl
    refine ⟨h256 l hl, (tf l hl').2.1, by have := tol l hl'; omega, ?_⟩
    rintro (q | ⟨m, hm, q⟩)
    · exact ((F1e _).mp q).2 l hl' rfl
    · exact tofrom l hl' m hm q
  · intro l hl hn
    have hl' := laball l hl
    have lnc : l ∉ ch := by intro q; rw [(chm l).mp q] at hn; simp at hn
    rw [B_old _ (tol l hl') (topar l hl') (tofrom l hl') (by
      intro m hm q
      have : l = m := by omega
      exact lnc (this ▸ hm))]
    rcases (tf l hl').2.2 with q | q
    · have := I.fl.rng _ q
      rw [if_neg (by omega)]; exact I.fb _ q
    · rw [if_pos q]
  · intro i u
    have hil := u.lt H4
    have nf := u.nf H4
    have nf1 : ¬ F1 i := fun q => nf (Or.inl q)
    rcases cls i hil.1 (by omega) with q | q | ⟨l, hl, rfl⟩
    · left
      have hf : ∀ l ∈ ch, i ≠ from_ + l := fun l hl w => nf (Or.inr ⟨l, hl, w⟩)
      exact ⟨i, q, φold i q hf⟩
    · exact absurd q nf1
    · by_cases hc : l ∈ ch
      · left; exact ⟨from_ + l, (chu l hc).1, φch l hc⟩
      · right
        refine ⟨l, ((allm l).mp hl).resolve_right hc, ?_, rfl⟩
        cases e : child h parent l with
        | none => rfl
        | some j => exact absurd (chj l j e).2 hc
  · intro l hl hn i u e
    have hl' := laball l hl
    have lnc : l ∉ ch := by intro q; rw [(chm l).mp q] at hn; simp at hn
    rcases dich i u with ⟨m, hm, rfl⟩ | hf
    · rw [φch m hm] at e
      have : l = m := by omega
      exact lnc (this ▸ hm)
    · rw [φold i u hf] at e
      exact tonu l hl' (e ▸ u)
  · rw [B_old 0 (by omega) (by omega) (fun l hl => by have := (chu l hl).2.1; omega)
      (fun l hl => by have := (tf l (chall l hl)).2.1; omega), if_neg (by omega)]

/-- `add(parent, labels)`: defined, keeps the invariant and all nodes, and gives `parent` the
transitions `labels`. -/
theorem add_spec {h F} (I : Inv h F) {parent labels} (up : Used h F parent)
    (hs : labels.Pairwise (· < ·)) (hne : labels ≠ []) (h256 : ∀ l ∈ labels, l ≤ 256)
    (hch : 1 ≤ h.base parent → ∃ l j, child h parent l = some j) :
    ∃ h' F' nb φ, add h parent labels = some (h', nb) ∧ Ext h F h' F' parent labels nb φ := by
  have hpl := up.lt I.fl
  obtain ⟨back, hback⟩ := getLast_some hne
  have hbl := I.bl parent up
  have main : ∃ h4 F' nb φ, (if h.base parent ≤ 0 then
            (locate h labels).bind fun r =>
              (allocate h r.1 labels r.2).bind fun h => some (h, r.1)
          else if isFreeP h parent (h.base parent).toNat labels = true then
            (allocate h (h.base parent).toNat labels 0).bind fun h1 => some (h1, (h.base parent).toNat)
          else relocate h parent (h.base parent).toNat labels) = some (h4, nb) ∧
        nb + back < h4.len ∧ Pre h F h4 F' parent labels nb φ := by
    by_cases hb : h.base parent ≤ 0
    · obtain ⟨nb, before, e, t1, tb, tf⟩ := locate_spec I.fl I.usedPos hne hs
      have nochild : ∀ l, child h parent l = none := by
        intro l; unfold child; rw [if_neg (by omega)]
      obtain ⟨h', F', e', lb, P⟩ := pre_alloc I up hs hback h256 t1 tb
        (by intro l j q; rw [nochild] at q; simp at q) (fun l hl => (tf l hl).1)
        (fun l hl => (tf l hl).2.1) (fun l hl => Or.inr (tf l hl).2.2)
      exact ⟨h', F', nb, id, by simp [hb, e, e'], lb, P⟩
    · obtain ⟨b, eb⟩ : ∃ b : Nat, h.base parent = b := ⟨(h.base parent).toNat, by omega⟩
      have hb1 : 1 ≤ b := by omega
      rw [eb] at hb ⊢
      rw [if_neg hb]
      simp only [Int.toNat_natCast]
      by_cases hf : isFreeP h parent b labels = true
      · rw [if_pos hf]
        have sp := isFreeP_spec I.usedPos hb1 labels hs hf I.fl.pos
        obtain ⟨h', F', e', lb, P⟩ := pre_alloc I up hs hback h256 hb1 (before := 0) (Or.inl rfl)
          (by
            intro l j q
            obtain ⟨b', e1, _, _, _, _, q⟩ := child_eq_some.mp q
            omega) (fun l hl => by have := (sp l hl).1; omega) (fun l hl => (sp l hl).1) (by
            intro l hl
            rcases (sp l hl).2 with q | q | q
            · exact Or.inr (Or.inl q)
            · left
              exact child_eq_some.mpr ⟨b, eb, hb1, h256 l hl, q.1, q.2, rfl⟩
            · exact Or.inr (Or.inr q))
        exact ⟨h', F', b, id, by rw [e']; rfl, lb, P⟩
      · rw [if_neg hf]
        obtain ⟨h', F', nb, φ, e, lb, P⟩ := pre_reloc I up hs hback h256 eb hb1 (hch (by omega))
        exact ⟨h', F', nb, φ, e, lb, P⟩
  obtain ⟨h4, F', nb, φ, e4, lb, P⟩ := main
  obtain ⟨h1, h2, w1, w2, l2, X⟩ := P.finish I up
  refine ⟨h2, F', nb, φ, ?_, X⟩
  have hn := X.nbl
  simp only [add, hback, if_pos (isSorted_of_lt _ hs), rdB, if_pos hpl.2, Option.bind_some, if_pos hbl]
  rw [e4]
  simp only [Option.bind_some, if_pos lb]
  rw [w1]; simp only [Option.bind_some]
  rw [w2]; simp only [Option.bind_some]
  rw [if_pos ⟨X.nb1, hn⟩]

end Verif.Proof.Trie
