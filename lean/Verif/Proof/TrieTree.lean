import Verif.Proof.TrieFree

/-!
The tree stored in the trie heap: invariant, paths, and the renaming lemma for `add`.
-/
namespace Verif.Proof.Trie
open Verif.Model.Trie

/-- Index `i` is the root or an allocated node. -/
def Used (h : Heap) (F : Nat → Prop) (i : Nat) : Prop := i = 1 ∨ (2 ≤ i ∧ i < h.len ∧ ¬ F i)

/-- Transition from `p` by label `l`. -/
def child (h : Heap) (p l : Nat) : Option Nat :=
  if 1 ≤ h.base p ∧ l ≤ 256 ∧ (h.base p).toNat + l < h.len ∧
      h.check ((h.base p).toNat + l) = (p : Int) then some ((h.base p).toNat + l) else none

/-- Node reached from `i` along a label string. -/
def walk (h : Heap) : Nat → List Nat → Option Nat
  | i, [] => some i
  | i, l :: ls => (child h i l).bind fun j => walk h j ls

structure Inv (h : Heap) (F : Nat → Prop) : Prop where
  fl : FL h F
  root : h.check 1 = 0
  fb : ∀ i, F i → h.base i = 0
  par : ∀ i, 2 ≤ i → i < h.len → ¬ F i →
    ∃ p b : Nat, Used h F p ∧ h.check i = p ∧ h.base p = b ∧ 1 ≤ b ∧ b ≤ i ∧ i ≤ b + 256
  bl : ∀ i, Used h F i → h.base i < h.len
  reach : ∀ i, Used h F i → ∃ s, walk h 1 s = some i

theorem child_eq_some {h p l j} : child h p l = some j ↔
    ∃ b : Nat, h.base p = b ∧ 1 ≤ b ∧ l ≤ 256 ∧ b + l < h.len ∧ h.check (b + l) = (p : Int) ∧
      j = b + l := by
  unfold child
  constructor
  · intro e
    split at e
    · rename_i c
      refine ⟨(h.base p).toNat, by omega, by omega, c.2.1, c.2.2.1, c.2.2.2, ?_⟩
      simpa using e.symm
    · simp at e
  · rintro ⟨b, e, b1, c1, c2, c3, rfl⟩
    have : (h.base p).toNat = b := by omega
    rw [if_pos]
    · rw [this]
    · rw [this]; exact ⟨by omega, c1, c2, c3⟩

theorem walk_append (h : Heap) (i : Nat) (s t : List Nat) :
    walk h i (s ++ t) = (walk h i s).bind fun j => walk h j t := by
  induction s generalizing i with
  | nil => rfl
  | cons a s ih =>
    simp only [List.cons_append, walk]
    cases child h i a with
    | none => rfl
    | some j => simp [ih]

theorem walk_snoc (h : Heap) (i : Nat) (s : List Nat) (l : Nat) :
    walk h i (s ++ [l]) = (walk h i s).bind fun j => child h j l := by
  rw [walk_append]
  congr 1; funext j
  simp only [walk]
  cases child h j l <;> rfl

theorem Used.lt {h F i} (H : FL h F) (u : Used h F i) : 1 ≤ i ∧ i < h.len := by
  have := H.pos
  rcases u with e | e <;> omega

theorem Used.nf {h F i} (H : FL h F) (u : Used h F i) : ¬ F i := by
  intro q
  have := H.rng i q
  rcases u with e | e
  · omega
  · exact e.2.2 q

theorem Inv.usedPos {h F} (I : Inv h F) : UsedPos h F := by
  intro i h2 hl nf
  obtain ⟨p, b, u, c, _⟩ := I.par i h2 hl nf
  have := (u.lt I.fl).1
  omega

theorem Inv.child_used {h F} (I : Inv h F) {p l j} (u : Used h F p) (e : child h p l = some j) :
    Used h F j ∧ 2 ≤ j ∧ h.check j = (p : Int) := by
  obtain ⟨b, e1, b1, l1, c1, c2, rfl⟩ := child_eq_some.mp e
  have hp := (u.lt I.fl).1
  have h1 : b + l ≠ 1 := by
    intro q; rw [q, I.root] at c2; omega
  have nf : ¬ F (b + l) := by
    intro q; have := I.fl.le0 (Or.inr q); omega
  exact ⟨Or.inr ⟨by omega, c1, nf⟩, by omega, c2⟩

theorem Inv.walk_used {h F} (I : Inv h F) : ∀ s i j, Used h F i → walk h i s = some j → Used h F j := by
  intro s
  induction s with
  | nil => intro i j u e; simp [walk] at e; exact e ▸ u
  | cons a s ih =>
    intro i j u e
    simp only [walk] at e
    cases hc : child h i a with
    | none => simp [hc] at e
    | some k => rw [hc] at e; exact ih k j (I.child_used u hc).1 e

theorem used_one (h F) : Used h F 1 := Or.inl rfl

theorem Inv.root_used {h F} (I : Inv h F) {s j} (e : walk h 1 s = some j) : Used h F j :=
  I.walk_used s 1 j (used_one h F) e

/-- The parent of an allocated node has it as a child. -/
theorem Inv.par_child {h F} (I : Inv h F) {i} (u : Used h F i) (h2 : 2 ≤ i) :
    ∃ p l, Used h F p ∧ h.check i = (p : Int) ∧ child h p l = some i := by
  rcases u with e | ⟨_, hl, nf⟩
  · omega
  · obtain ⟨p, b, u, c, e, b1, b2, b3⟩ := I.par i h2 hl nf
    refine ⟨p, i - b, u, c, child_eq_some.mpr ⟨b, e, b1, by omega, by omega, ?_, by omega⟩⟩
    have : b + (i - b) = i := by omega
    rw [this]; exact c

theorem Inv.child_of_check {h F} (I : Inv h F) {i p : Nat} (h2 : 2 ≤ i) (hl : i < h.len)
    (hp : 1 ≤ p) (c : h.check i = (p : Int)) : ∃ l, child h p l = some i := by
  have nf : ¬ F i := by intro q; have := I.fl.le0 (Or.inr q); omega
  obtain ⟨p', l, _, c', e⟩ := I.par_child (Or.inr ⟨h2, hl, nf⟩) h2
  have : p' = p := by omega
  exact ⟨l, this ▸ e⟩

theorem Inv.unique {h F} (I : Inv h F) : ∀ n s t i, s.length = n → walk h 1 s = some i →
    walk h 1 t = some i → s = t := by
  intro n
  induction n with
  | zero =>
    intro s t i hn e1 e2
    have : s = [] := List.length_eq_zero_iff.mp hn
    subst this
    simp [walk] at e1; subst e1
    rcases List.eq_nil_or_concat t with rfl | ⟨t', l, rfl⟩
    · rfl
    · simp only [List.concat_eq_append] at e2
      rw [walk_snoc] at e2
      cases hw : walk h 1 t' with
      | none => simp [hw] at e2
      | some j =>
        rw [hw] at e2
        have := (I.child_used (I.root_used hw) e2).2.1
        omega
  | succ n ih =>
    intro s t i hn e1 e2
    rcases List.eq_nil_or_concat s with rfl | ⟨s', l, rfl⟩
    · simp at hn
    · simp only [List.concat_eq_append] at *
      rw [walk_snoc] at e1
      cases hw : walk h 1 s' with
      | none => simp [hw] at e1
      | some j =>
        rw [hw] at e1
        have e1' : child h j l = some i := e1
        have k1 := I.child_used (I.root_used hw) e1'
        rcases List.eq_nil_or_concat t with rfl | ⟨t', l', rfl⟩
        · simp [walk] at e2; omega
        · simp only [List.concat_eq_append] at *
          rw [walk_snoc] at e2
          cases hw2 : walk h 1 t' with
          | none => simp [hw2] at e2
          | some j2 =>
            rw [hw2] at e2
            have e2' : child h j2 l' = some i := e2
            have k2 := I.child_used (I.root_used hw2) e2'
            have hj : j = j2 := by omega
            subst hj
            have := ih s' t' j (by simpa using hn) hw hw2
            subst this
            obtain ⟨b, q1, _, _, _, _, q2⟩ := child_eq_some.mp e1'
            obtain ⟨b', q1', _, _, _, _, q2'⟩ := child_eq_some.mp e2'
            have : l = l' := by omega
            rw [this]

theorem Inv.walk_inj {h F} (I : Inv h F) {s t i} (e1 : walk h 1 s = some i)
    (e2 : walk h 1 t = some i) : s = t := I.unique _ s t i rfl e1 e2

theorem Inv.not_self {h F} (I : Inv h F) {p l} (u : Used h F p) : child h p l ≠ some p := by
  intro e
  obtain ⟨s, hs⟩ := I.reach p u
  have e2 : walk h 1 (s ++ [l]) = some p := by rw [walk_snoc, hs]; exact e
  have := congrArg List.length (I.walk_inj hs e2)
  simp at this

theorem Inv.child_inj {h F} (_I : Inv h F) {p l l' j} (e : child h p l = some j)
    (e' : child h p l' = some j) : l = l' := by
  obtain ⟨b, q1, _, _, _, _, q2⟩ := child_eq_some.mp e
  obtain ⟨b', q1', _, _, _, _, q2'⟩ := child_eq_some.mp e'
  omega

/-- What a node looks like: it has transitions (`m_base ≥ 1`), or it is a leaf with a value. -/
inductive Kind where
  | inner
  | leaf (v : Int)
deriving DecidableEq

def kind (h : Heap) (i : Nat) : Kind := if 1 ≤ h.base i then .inner else .leaf (-(h.base i))

/-- The stored tree as a function from label strings. -/
def tr (h : Heap) (s : List Nat) : Option Kind := (walk h 1 s).map (kind h)

/-- State in the middle of `add parent labels`: every old node `i` is now at `φ i`,
the new nodes `nb + l` are allocated. -/
structure Pre (h : Heap) (F : Nat → Prop) (h' : Heap) (F' : Nat → Prop) (parent : Nat)
    (labels : List Nat) (nb : Nat) (φ : Nat → Nat) : Prop where
  fl : FL h' F'
  root : h'.check 1 = 0
  fb : ∀ i, F' i → h'.base i = 0
  used_ph : ∀ i, Used h F i → Used h' F' (φ i)
  inj : ∀ i j, Used h F i → Used h F j → φ i = φ j → i = j
  phid : ∀ i, Used h F i → (∀ l, child h parent l ≠ some i) → φ i = i
  oldl : ∀ l j, child h parent l = some j → φ j = nb + l
  ch : ∀ i (p : Nat), Used h F i → 2 ≤ i → h.check i = p → h'.check (φ i) = φ p
  bs : ∀ i, Used h F i → i ≠ parent → h'.base (φ i) = h.base i
  nb1 : 1 ≤ nb
  nbl : nb < h'.len
  lenle : h.len ≤ h'.len
  newl : ∀ l ∈ labels, l ≤ 256 ∧ 2 ≤ nb + l ∧ nb + l < h'.len ∧ ¬ F' (nb + l)
  new0 : ∀ l ∈ labels, child h parent l = none → h'.base (nb + l) = 0
  cover : ∀ i, Used h' F' i → (∃ j, Used h F j ∧ φ j = i) ∨
    (∃ l ∈ labels, child h parent l = none ∧ i = nb + l)
  fresh : ∀ l ∈ labels, child h parent l = none → ∀ i, Used h F i → φ i ≠ nb + l
  size : h'.base 0 = h.base 0

/-- State after `add parent labels`. -/
structure Ext (h : Heap) (F : Nat → Prop) (h' : Heap) (F' : Nat → Prop) (parent : Nat)
    (labels : List Nat) (nb : Nat) (φ : Nat → Nat) : Prop extends Pre h F h' F' parent labels nb φ where
  bp : h'.base parent = nb
  newc : ∀ l ∈ labels, h'.check (nb + l) = (parent : Int)

theorem setChecks_spec (parent base : Nat) : ∀ ls (h : Heap), (∀ l ∈ ls, base + l < h.len) →
    ∃ h', setChecks parent base ls h = some h' ∧ h'.len = h.len ∧ h'.base = h.base ∧
      (∀ l ∈ ls, h'.check (base + l) = (parent : Int)) ∧
      (∀ i, (∀ l ∈ ls, i ≠ base + l) → h'.check i = h.check i) := by
  intro ls
  induction ls with
  | nil => intro h _; exact ⟨h, rfl, rfl, rfl, by simp, fun _ _ => rfl⟩
  | cons a ls ih =>
    intro h hl
    have ha := hl a (by simp)
    obtain ⟨h', e, l', b', c1, c2⟩ := ih { h with check := upd h.check (base + a) (parent : Int) }
      (fun l hm => hl l (by simp [hm]))
    refine ⟨h', by simp [setChecks, wrC, ha, e], l', b', ?_, ?_⟩
    · intro l hm
      by_cases q : ∃ m ∈ ls, base + l = base + m
      · obtain ⟨m, hm, q⟩ := q; rw [q]; exact c1 m hm
      · rw [c2 _ (fun m hm w => q ⟨m, hm, w⟩)]
        rcases List.mem_cons.mp hm with rfl | hm
        · simp [upd]
        · exact absurd ⟨l, hm, rfl⟩ q
    · intro i hi
      rw [c2 i (fun m hm => hi m (by simp [hm]))]
      simp [upd, hi a (by simp)]

theorem FL.frame {h h' : Heap} {F} (H : FL h F) (hl : h'.len = h.len)
    (hc : ∀ i, (i = 0 ∨ F i) → h'.check i = h.check i) : FL h' F := by
  refine ⟨hl ▸ H.pos, fun i hi => hl ▸ H.rng i hi, ?_⟩
  intro i hi
  rcases H.nx i hi with ⟨a, c⟩ | ⟨j, fj, ij, a, c⟩
  · exact Or.inl ⟨(hc i hi).trans a, c⟩
  · exact Or.inr ⟨j, fj, ij, (hc i hi).trans a, c⟩

theorem Pre.phpar {h F h' F' parent labels nb φ} (P : Pre h F h' F' parent labels nb φ)
    (I : Inv h F) (up : Used h F parent) : φ parent = parent :=
  P.phid parent up fun _ => I.not_self up

theorem Pre.ph1 {h F h' F' parent labels nb φ} (P : Pre h F h' F' parent labels nb φ)
    (I : Inv h F) (up : Used h F parent) : φ 1 = 1 :=
  P.phid 1 (used_one h F) fun _ q => by have := (I.child_used up q).2.1; omega

/-- The last steps of `add`. -/
theorem Pre.finish {h F h' F' parent labels nb φ} (P : Pre h F h' F' parent labels nb φ)
    (I : Inv h F) (up : Used h F parent) :
    ∃ h1 h2, wrB h' parent (nb : Int) = some h1 ∧ setChecks parent nb labels h1 = some h2 ∧
      h2.len = h'.len ∧ Ext h F h2 F' parent labels nb φ := by
  have php := P.phpar I up
  have up' : Used h' F' parent := php ▸ P.used_ph parent up
  have hpl := (up'.lt P.fl).2
  obtain ⟨h2, e2, l2, b2, c1, c2⟩ := setChecks_spec parent nb labels
    { h' with base := upd h'.base parent (nb : Int) } (fun l hl => (P.newl l hl).2.2.1)
  have l2' : h2.len = h'.len := l2
  have b2' : h2.base = upd h'.base parent (nb : Int) := b2
  have c2' : ∀ i, (∀ l ∈ labels, i ≠ nb + l) → h2.check i = h'.check i := c2
  have hU : ∀ i, Used h2 F' i ↔ Used h' F' i := by intro i; simp [Used, l2']
  refine ⟨_, h2, by simp [wrB, hpl], e2, l2', ⟨⟨?_, ?_, ?_, ?_, P.inj, P.phid, P.oldl, ?_, ?_, P.nb1,
    by have := P.nbl; omega, by have := P.lenle; omega, ?_, ?_, ?_, ?_, ?_⟩, by rw [b2']; simp [upd], c1⟩⟩
  · refine P.fl.frame l2' ?_
    intro i hi
    apply c2'
    intro l hl q
    have := P.newl l hl
    rcases hi with w | w
    · omega
    · exact this.2.2.2 (q ▸ w)
  · rw [c2' 1 (by intro l hl; have := P.newl l hl; omega)]; exact P.root
  · intro i hi
    rw [b2', upd, if_neg (by rintro rfl; exact up'.nf P.fl hi)]
    exact P.fb i hi
  · intro i u; exact (hU _).mpr (P.used_ph i u)
  · intro i p u i2 c
    by_cases q : ∃ l ∈ labels, φ i = nb + l
    · obtain ⟨l, hl, q⟩ := q
      rw [q, c1 l hl]
      have hc := P.ch i p u i2 c
      by_cases w : ∃ l', child h parent l' = some i
      · obtain ⟨l', w⟩ := w
        have := (I.child_used up w).2.2
        have : p = parent := by omega
        rw [this, php]
      · exfalso
        cases hc' : child h parent l with
        | none => exact P.fresh l hl hc' i u q
        | some j =>
          have hj := P.oldl l j hc'
          have := P.inj i j u (I.child_used up hc').1 (by rw [q, hj])
          exact w ⟨l, this ▸ hc'⟩
    · rw [c2' _ (fun l hl w => q ⟨l, hl, w⟩)]
      exact P.ch i p u i2 c
  · intro i u hne
    have : φ i ≠ parent := by
      intro q; exact hne (P.inj i parent u up (by rw [q, php]))
    rw [b2', upd, if_neg this]; exact P.bs i u hne
  · intro l hl; rw [l2']; exact P.newl l hl
  · intro l hl hn
    have : nb + l ≠ parent := by
      intro q
      exact P.fresh l hl hn parent up (by rw [php, q])
    rw [b2', upd, if_neg this]; exact P.new0 l hl hn
  · intro i u; exact P.cover i ((hU i).mp u)
  · exact P.fresh
  · have := (up'.lt P.fl).1
    rw [b2', upd, if_neg (by omega)]; exact P.size

section ext
variable {h F h' F' parent labels nb φ}

theorem Ext.ge2 (X : Ext h F h' F' parent labels nb φ) (I : Inv h F) (up : Used h F parent)
    {i} (u : Used h F i) (h2 : 2 ≤ i) : 2 ≤ φ i := by
  have := (X.used_ph i u).lt X.fl
  have ne : φ i ≠ 1 := by
    intro q
    have := X.inj i 1 u (used_one h F) (by rw [q, X.toPre.ph1 I up])
    omega
  omega

/-- Children of an old node other than the parent. -/
theorem Ext.child_old (X : Ext h F h' F' parent labels nb φ) (I : Inv h F) (up : Used h F parent)
    {i} (u : Used h F i) (hne : i ≠ parent) (l : Nat) :
    child h' (φ i) l = (child h i l).map φ := by
  have hb := X.bs i u hne
  have php := X.toPre.phpar I up
  cases hc : child h i l with
  | some j =>
    obtain ⟨b, e, b1, l1, c1, c2, rfl⟩ := child_eq_some.mp hc
    have uj := I.child_used u hc
    have hid : φ (b + l) = b + l := X.phid _ uj.1 (by
      intro l' q
      have := (I.child_used up q).2.2
      omega)
    have hch := X.ch (b + l) i uj.1 uj.2.1 c2
    have := X.lenle
    rw [hid] at hch
    exact child_eq_some.mpr ⟨b, by rw [hb]; exact e, b1, l1, by omega, hch, hid⟩
  | none =>
    cases hc' : child h' (φ i) l with
    | none => rfl
    | some j =>
      exfalso
      obtain ⟨b, e, b1, l1, c1, c2, rfl⟩ := child_eq_some.mp hc'
      have hphi := ((X.used_ph i u).lt X.fl).1
      have nf : ¬ F' (b + l) := by
        intro q; have := X.fl.le0 (Or.inr q); omega
      have n1 : b + l ≠ 1 := by
        intro q; rw [q, X.root] at c2; omega
      rcases X.cover (b + l) (Or.inr ⟨by omega, c1, nf⟩) with ⟨k, uk, hk⟩ | ⟨l', hl', hn, hk⟩
      · have k2 : 2 ≤ k := by
          have := (uk.lt I.fl).1
          have : k ≠ 1 := by
            rintro rfl; rw [X.toPre.ph1 I up] at hk; omega
          omega
        obtain ⟨p, l', upp, hp, hcp⟩ := I.par_child uk k2
        have hch := X.ch k p uk k2 hp
        rw [hk, c2] at hch
        have : i = p := X.inj i p u upp (by omega)
        subst this
        have hid : φ k = k := X.phid k uk (by
          intro l'' q
          have := (I.child_used up q).2.2
          omega)
        have hkb : k = b + l := by omega
        subst hkb
        obtain ⟨b', e', _, _, _, _, q⟩ := child_eq_some.mp hcp
        have : l' = l := by omega
        subst this
        rw [hc] at hcp; simp at hcp
      · have := X.newc l' hl'
        rw [← hk, c2] at this
        have : i = parent := X.inj i parent u up (by omega)
        exact hne this

/-- Children of the parent. -/
theorem Ext.child_par (X : Ext h F h' F' parent labels nb φ) (I : Inv h F) (up : Used h F parent)
    (l : Nat) (j : Nat) : child h' parent l = some j ↔
      j = nb + l ∧ (l ∈ labels ∨ (child h parent l).isSome = true) := by
  have php := X.toPre.phpar I up
  have hp1 := (up.lt I.fl).1
  constructor
  · intro e
    obtain ⟨b, e, b1, l1, c1, c2, rfl⟩ := child_eq_some.mp e
    have hb : b = nb := by have := X.bp; omega
    subst hb
    refine ⟨rfl, ?_⟩
    have nf : ¬ F' (b + l) := by
      intro q; have := X.fl.le0 (Or.inr q); omega
    have n1 : b + l ≠ 1 := by
      intro q; rw [q, X.root] at c2; omega
    rcases X.cover (b + l) (Or.inr ⟨by omega, c1, nf⟩) with ⟨k, uk, hk⟩ | ⟨l', hl', hn, hk⟩
    · have k2 : 2 ≤ k := by
        have := (uk.lt I.fl).1
        have : k ≠ 1 := by
          rintro rfl; rw [X.toPre.ph1 I up] at hk; omega
        omega
      obtain ⟨p, l', upp, hp, hcp⟩ := I.par_child uk k2
      have hch := X.ch k p uk k2 hp
      rw [hk, c2] at hch
      have : p = parent := X.inj p parent upp up (by omega)
      subst this
      have := X.oldl l' k hcp
      have : l' = l := by omega
      subst this
      right; rw [hcp]; rfl
    · left
      have : l = l' := by omega
      rw [this]; exact hl'
  · rintro ⟨rfl, hl⟩
    by_cases hm : l ∈ labels
    · have := X.newl l hm
      exact child_eq_some.mpr ⟨nb, X.bp, X.nb1, this.1, this.2.2.1, X.newc l hm, rfl⟩
    · have hs := hl.resolve_left hm
      obtain ⟨j, hj⟩ := Option.isSome_iff_exists.mp hs
      have uj := I.child_used up hj
      have ho := X.oldl l j hj
      have hch := X.ch j parent uj.1 uj.2.1 uj.2.2
      rw [ho, php] at hch
      have hl1 : l ≤ 256 := by
        obtain ⟨_, _, _, q, _⟩ := child_eq_some.mp hj; exact q
      have := (X.used_ph j uj.1).lt X.fl
      exact child_eq_some.mpr ⟨nb, X.bp, X.nb1, hl1, by omega, hch, rfl⟩

/-- New nodes have no children. -/
theorem Ext.child_new (X : Ext h F h' F' parent labels nb φ)
    {l} (hl : l ∈ labels) (hn : child h parent l = none) (m : Nat) : child h' (nb + l) m = none := by
  have := X.new0 l hl hn
  unfold child
  rw [if_neg]; omega

theorem Ext.walk_old (X : Ext h F h' F' parent labels nb φ) (I : Inv h F) (up : Used h F parent) :
    ∀ n s i, s.length = n → walk h 1 s = some i → walk h' 1 s = some (φ i) := by
  intro n
  induction n with
  | zero =>
    intro s i hn e
    have : s = [] := List.length_eq_zero_iff.mp hn
    subst this
    simp [walk] at e; subst e
    simp [walk, X.toPre.ph1 I up]
  | succ n ih =>
    intro s i hn e
    rcases List.eq_nil_or_concat s with rfl | ⟨s', l, rfl⟩
    · simp at hn
    · simp only [List.concat_eq_append] at *
      rw [walk_snoc] at e ⊢
      cases hw : walk h 1 s' with
      | none => simp [hw] at e
      | some j =>
        rw [hw] at e
        have e : child h j l = some i := e
        rw [ih s' j (by simpa using hn) hw]
        show child h' (φ j) l = some (φ i)
        have uj := I.root_used hw
        by_cases hj : j = parent
        · subst hj
          rw [X.toPre.phpar I up, X.child_par I up]
          exact ⟨X.oldl l i e, Or.inr (by rw [e]; rfl)⟩
        · rw [X.child_old I up uj hj, e]; rfl

theorem Ext.walk_new (X : Ext h F h' F' parent labels nb φ) (I : Inv h F) (up : Used h F parent)
    {q} (hq : walk h 1 q = some parent) : ∀ l ∈ labels, walk h' 1 (q ++ [l]) = some (nb + l) := by
  intro l hl
  rw [walk_snoc, X.walk_old I up _ q parent rfl hq, X.toPre.phpar I up]
  exact (X.child_par I up l _).mpr ⟨rfl, Or.inl hl⟩

theorem Ext.walk_conv (X : Ext h F h' F' parent labels nb φ) (I : Inv h F) (up : Used h F parent)
    {q} (hq : walk h 1 q = some parent) : ∀ n s k, s.length = n → walk h' 1 s = some k →
    (∃ i, walk h 1 s = some i ∧ k = φ i) ∨
      (walk h 1 s = none ∧ ∃ l ∈ labels, s = q ++ [l] ∧ k = nb + l ∧ child h parent l = none) := by
  intro n
  induction n with
  | zero =>
    intro s k hn e
    have : s = [] := List.length_eq_zero_iff.mp hn
    subst this
    simp [walk] at e; subst e
    exact Or.inl ⟨1, rfl, (X.toPre.ph1 I up).symm⟩
  | succ n ih =>
    intro s k hn e
    rcases List.eq_nil_or_concat s with rfl | ⟨s', l, rfl⟩
    · simp at hn
    · simp only [List.concat_eq_append] at *
      rw [walk_snoc] at e
      cases hw : walk h' 1 s' with
      | none => simp [hw] at e
      | some j =>
        rw [hw] at e
        have e : child h' j l = some k := e
        rcases ih s' j (by simpa using hn) hw with ⟨i, hi, rfl⟩ | ⟨_, l', hl', rfl, rfl, hnone⟩
        · have ui := I.root_used hi
          by_cases hj : i = parent
          · subst hj
            have hs' := I.walk_inj hi hq
            subst hs'
            rw [X.toPre.phpar I up] at e
            obtain ⟨rfl, hl⟩ := (X.child_par I up l k).mp e
            cases hc : child h i l with
            | some j2 =>
              left
              refine ⟨j2, ?_, (X.oldl l j2 hc).symm⟩
              rw [walk_snoc, hi]; exact hc
            | none =>
              right
              refine ⟨by rw [walk_snoc, hi]; exact hc, l, ?_, rfl, rfl, hc⟩
              rcases hl with hl | hl
              · exact hl
              · rw [hc] at hl; simp at hl
          · rw [X.child_old I up ui hj] at e
            cases hc : child h i l with
            | none => rw [hc] at e; simp at e
            | some j2 =>
              rw [hc] at e
              left
              refine ⟨j2, by rw [walk_snoc, hi]; exact hc, by simpa using e.symm⟩
        · rw [X.child_new hl' hnone] at e; simp at e

theorem Ext.inv (X : Ext h F h' F' parent labels nb φ) (I : Inv h F) (up : Used h F parent) :
    Inv h' F' := by
  have php := X.toPre.phpar I up
  obtain ⟨q, hq⟩ := I.reach parent up
  have up' : Used h' F' parent := php ▸ X.used_ph parent up
  refine ⟨X.fl, X.root, X.fb, ?_, ?_, ?_⟩
  · intro i i2 il nf
    rcases X.cover i (Or.inr ⟨i2, il, nf⟩) with ⟨k, uk, rfl⟩ | ⟨l, hl, hn, rfl⟩
    · have k2 : 2 ≤ k := by
        have := (uk.lt I.fl).1
        have : k ≠ 1 := by
          rintro rfl; rw [X.toPre.ph1 I up] at i2; omega
        omega
      obtain ⟨p, l, upp, hp, hcp⟩ := I.par_child uk k2
      have hch := X.ch k p uk k2 hp
      by_cases hpp : p = parent
      · subst hpp
        refine ⟨p, nb, up', by rw [hch, php], X.bp, X.nb1, ?_⟩
        have := X.oldl l k hcp
        obtain ⟨_, _, _, ql, _⟩ := child_eq_some.mp hcp
        omega
      · obtain ⟨b, e, b1, l1, c1, c2, hk⟩ := child_eq_some.mp hcp
        have hid : φ k = k := X.phid k uk (by
          intro l' w; have := (I.child_used up w).2.2; omega)
        exact ⟨φ p, b, X.used_ph p upp, hch, by rw [X.bs p upp hpp, e], b1, by omega, by omega⟩
    · refine ⟨parent, nb, up', X.newc l hl, X.bp, X.nb1, by omega, ?_⟩
      have := (X.newl l hl).1; omega
  · intro i u
    rcases X.cover i u with ⟨k, uk, rfl⟩ | ⟨l, hl, hn, rfl⟩
    · by_cases hk : k = parent
      · subst hk
        rw [php, X.bp]; have := X.nbl; omega
      · rw [X.bs k uk hk]
        have := I.bl k uk
        have := X.lenle
        omega
    · rw [X.new0 l hl hn]; have := X.fl.pos; omega
  · intro i u
    rcases X.cover i u with ⟨k, uk, rfl⟩ | ⟨l, hl, hn, rfl⟩
    · obtain ⟨s, hs⟩ := I.reach k uk
      exact ⟨s, X.walk_old I up _ s k rfl hs⟩
    · exact ⟨q ++ [l], X.walk_new I up hq l hl⟩

theorem Ext.tr_eq (X : Ext h F h' F' parent labels nb φ) (I : Inv h F) (up : Used h F parent)
    {q} (hq : walk h 1 q = some parent) (s : List Nat) :
    tr h' s = if s = q then some .inner
      else if tr h s = none ∧ s ∈ labels.map (q ++ [·]) then some (.leaf 0) else tr h s := by
  have php := X.toPre.phpar I up
  cases hw : walk h 1 s with
  | some i =>
    have hw' := X.walk_old I up _ s i rfl hw
    have htr : tr h s ≠ none := by simp [tr, hw]
    have htr' : ¬ (tr h s = none ∧ s ∈ labels.map (q ++ [·])) := fun w => htr w.1
    rw [if_neg htr']
    by_cases hsq : s = q
    · subst hsq
      rw [if_pos rfl]
      have : i = parent := by rw [hw] at hq; simpa using hq
      subst this
      have hb := X.bp
      have hb1 := X.nb1
      have : (1 : Int) ≤ nb := by omega
      simp [tr, hw', php, kind, hb, this]
    · rw [if_neg hsq]
      have hip : i ≠ parent := by
        rintro rfl; exact hsq (I.walk_inj hw hq)
      simp [tr, hw', hw, kind, X.bs i (I.root_used hw) hip]
  | none =>
    have hsq : s ≠ q := by
      rintro rfl; rw [hw] at hq; simp at hq
    have htr : tr h s = none := by simp [tr, hw]
    rw [if_neg hsq]
    by_cases hm : s ∈ labels.map (q ++ [·])
    · rw [if_pos ⟨htr, hm⟩]
      obtain ⟨l, hl, rfl⟩ := List.mem_map.mp hm
      have hw' := X.walk_new I up hq l hl
      have hn : child h parent l = none := by
        rw [walk_snoc, hq] at hw; exact hw
      simp [tr, hw', kind, X.new0 l hl hn]
    · rw [if_neg (fun w => hm w.2), htr]
      cases hw' : walk h' 1 s with
      | none => simp [tr, hw']
      | some k =>
        exfalso
        rcases X.walk_conv I up hq _ s k rfl hw' with ⟨i, hi, _⟩ | ⟨_, l, hl, rfl, _⟩
        · rw [hw] at hi; simp at hi
        · exact hm (List.mem_map.mpr ⟨l, hl, rfl⟩)

end ext

end Verif.Proof.Trie
