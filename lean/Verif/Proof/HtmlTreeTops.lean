import Verif.Proof.HtmlTreeForest
/- The elements at the top of the tree: the root, and what is in it. -/
namespace Verif.Proof.HtmlTree.Forest
open Verif.Model.HtmlTree

variable {d d' : Dom} {x y z p n r : Nat} {k : Kind} {pl : Place}

/-- Nodes stay what they are. -/
def Mono (d d' : Dom) : Prop := ∀ y k, kindOf d y = some k → Sim (some k) (kindOf d' y)

theorem Mono.refl : Mono d d := fun _ _ h => .inl h

theorem Sim.trans {a b c : Option Kind} (h1 : Sim a b) (h2 : Sim b c) : Sim a c := by
  rcases h1 with rfl | ⟨ns, t, a1, a2, rfl, rfl⟩ | ⟨t, t', rfl, rfl, ht⟩
  · exact h2
  · rcases h2 with rfl | ⟨_, _, _, _, e, rfl⟩ | ⟨_, _, e, _⟩
    · exact .inr (.inl ⟨_, _, _, _, rfl, rfl⟩)
    · cases e; exact .inr (.inl ⟨_, _, _, _, rfl, rfl⟩)
    · cases e
  · rcases h2 with rfl | ⟨_, _, _, _, e, _⟩ | ⟨_, _, e, rfl, h'⟩
    · exact .inr (.inr ⟨_, _, rfl, rfl, ht⟩)
    · cases e
    · cases e; exact .inr (.inr ⟨_, _, rfl, rfl, h'⟩)

theorem Mono.trans {d'' : Dom} (h1 : Mono d d') (h2 : Mono d' d'') : Mono d d'' := by
  intro y k hk
  have h3 := h1 y k hk
  cases h4 : kindOf d' y with
  | none => rw [h4] at h3; rcases h3 with h | ⟨_, _, _, _, _, h⟩ | ⟨_, _, _, h, _⟩ <;> cases h
  | some k' => exact Sim.trans (h4 ▸ h3) (h2 y k' h4)

theorem Mono.of_eq (h : ∀ y, kindOf d' y = kindOf d y) : Mono d d' := fun y k hk => .inl (by rw [h, hk])

theorem Mono.add : Mono d (d ++ [⟨k, none, []⟩]) := fun y k' hk => .inl (by rw [kind_add, if_neg (Nat.ne_of_lt (lt_of_kind hk)), hk])

theorem Elem.mono (h : Elem d x) (m : Mono d d') : Elem d' x := by
  obtain ⟨ns, t, a, h⟩ := h
  rcases m x _ h with h | ⟨_, _, _, _, e, h⟩ | ⟨_, _, e, _⟩
  · exact ⟨_, _, _, h⟩
  · exact ⟨_, _, _, h⟩
  · cases e

theorem fresh_link (w : Wf d) (hb : ∀ p, pl.parent d = some p → p = 0 ∨ Elem d p) (hk : k ≠ .document) (ht : ∀ t, k = .text t → t ≠ [])
    (e : link (d ++ [⟨k, none, []⟩]) pl d.length = .ok d') :
    ∃ p, pl.parent d = some p ∧ Wf d' ∧ Mono d d' ∧ kindOf d' d.length = some k ∧ d'.length = d.length + 1 ∧
      ∀ q, kidsOf d' q = if p = q then put pl d.length (kidsOf d q) else kidsOf d q := by
  obtain ⟨p, hp, -⟩ := link_eq e
  have hpp : pl.parent (d ++ [⟨k, none, []⟩]) = pl.parent d := by
    cases pl with
    | last => rfl
    | before => exact parent_add
  have hp1 := hp
  rw [hpp] at hp
  have hB := hb p hp
  have hB' : p = 0 ∨ Elem (d ++ [⟨k, none, []⟩]) p := hB.imp id fun h => h.mono Mono.add
  have hlt : p < d.length := by
    rcases hB with rfl | h
    · exact w.pos
    · exact h.lt
  have w' := wf_add (k := k) w hk ht
  refine ⟨p, hp, wf_link w' (by simp) (Nat.ne_of_gt w.pos) ?_ hp1 hB' ?_ e, ?_, ?_, ?_, fun q => ?_⟩
  · rw [parent_add]
    cases hq : parentOf d d.length with
    | none => rfl
    | some => exact absurd (lt_of_parent hq) (by simp)
  · intro hc
    have : p = d.length := below_fresh (fun y hy => by rw [parent_add] at hy; exact absurd (w.lt hy) (by simp)) hc
    omega
  · exact Mono.add.trans (Mono.of_eq fun y => link_kind e)
  · rw [link_kind e, kind_add, if_pos rfl]
  · rw [link_length e]; simp
  · rw [link_kids e fun q hq => by rw [hp1] at hq; cases hq; simp; omega, hp1, kids_add]
    simp

/-- Namespace and name of an element. -/
def tagAt (d : Dom) (x : Nat) : Option (Ns × Tag) :=
  match kindOf d x with
  | some (.elem ns t _) => some (ns, t)
  | _ => none

/-- The elements among the children. -/
def els (d : Dom) (p : Nat) : List Nat := (kidsOf d p).filter fun x => (tagAt d x).isSome

/-- The names stay, and the elements at the top. -/
structure Kept (d d' : Dom) : Prop where
  tags : ∀ x v, tagAt d x = some v → tagAt d' x = some v
  wf : Wf d → Wf d'
  root : Wf d → els d' 0 = els d 0
  tops : Wf d → ∀ r ∈ els d 0, els d' r = els d r

theorem tag_elem {v : Ns × Tag} (h : tagAt d x = some v) : Elem d x := by
  unfold tagAt at h
  split at h
  · next h' => exact ⟨_, _, _, h'⟩
  · cases h

theorem tag_mono (m : Mono d d') (h : kindOf d x ≠ none) : tagAt d' x = tagAt d x := by
  cases hk : kindOf d x with
  | none => exact absurd hk h
  | some k =>
    unfold tagAt
    rw [hk]
    rcases m x k hk with e | ⟨_, _, _, _, e, e'⟩ | ⟨_, _, e, e', -⟩
    · rw [e]
    · cases e; rw [e']
    · cases e; rw [e']

theorem tag_kept (m : Mono d d') {v : Ns × Tag} (h : tagAt d x = some v) : tagAt d' x = some v := by
  rw [tag_mono m, h]
  intro hc
  unfold tagAt at h
  rw [hc] at h
  cases h

theorem Kept.refl (d : Dom) : Kept d d := ⟨fun _ _ h => h, fun h => h, fun _ => rfl, fun _ _ _ => rfl⟩

theorem Kept.trans {a b c : Dom} (h1 : Kept a b) (h2 : Kept b c) : Kept a c :=
  ⟨fun x v h => h2.tags x v (h1.tags x v h), fun w => h2.wf (h1.wf w), fun w => (h2.root (h1.wf w)).trans (h1.root w),
    fun w r hr => (h2.tops (h1.wf w) r (by rw [h1.root w]; exact hr)).trans (h1.tops w r hr)⟩

theorem kid_lt (w : Wf d) (h : x ∈ kidsOf d p) : x < d.length := lt_of_parent ((w.kid _ _).mp h)

theorem kind_ne (h : x < d.length) : kindOf d x ≠ none := by
  obtain ⟨k, hk⟩ := kind_of_lt h
  rw [hk]; simp

/-- The same children, or one more that is no element. -/
theorem els_same (w : Wf d) (m : Mono d d') (h : kidsOf d' p = kidsOf d p) : els d' p = els d p := by
  unfold els
  rw [h]
  exact List.filter_congr fun x hx => by rw [tag_mono m (kind_ne (kid_lt w hx))]

theorem filter_put {f : Nat → Bool} (h : f x = false) (l : List Nat) : (put pl x l).filter f = l.filter f := by
  cases pl with
  | last => simp [put, h]
  | before y =>
    show (insBefore y x l).filter f = _
    induction l with
    | nil => simp [insBefore, h]
    | cons a l ih =>
      unfold insBefore
      split
      · rw [List.filter_cons_of_neg (by simp [h])]
      · rw [List.filter_cons, List.filter_cons, ih]

theorem els_put (w : Wf d) (m : Mono d d') (h : kidsOf d' p = put pl x (kidsOf d p)) (hx : tagAt d' x = none) : els d' p = els d p := by
  unfold els
  rw [h, filter_put (by rw [hx]; rfl)]
  exact List.filter_congr fun x hx => by rw [tag_mono m (kind_ne (kid_lt w hx))]

theorem Kept.of (m : Mono d d') (w : Wf d → Wf d') (h : Wf d → ∀ q, q = 0 ∨ q ∈ els d 0 → els d' q = els d q) : Kept d d' :=
  ⟨fun _ _ => tag_kept m, w, fun hw => h hw 0 (.inl rfl), fun hw r hr => h hw r (.inr hr)⟩

theorem Kept.add (hk : k ≠ .document) (ht : ∀ t, k = .text t → t ≠ []) : Kept d (d ++ [⟨k, none, []⟩]) :=
  Kept.of Mono.add (fun w => wf_add w hk ht) fun w q _ => els_same w Mono.add kids_add

/-- Not at the top. -/
def Deep (d : Dom) (p : Nat) : Prop := p ≠ 0 ∧ p ∉ els d 0

theorem Kept.link_new (hb : ∀ p, pl.parent d = some p → p = 0 ∨ Elem d p) (hk : k ≠ .document) (ht : ∀ t, k = .text t → t ≠ [])
    (hn : (∀ ns t a, k ≠ .elem ns t a) ∨ ∀ p, pl.parent d = some p → Deep d p)
    (w : Wf d) (e : link (d ++ [⟨k, none, []⟩]) pl d.length = .ok d') : Kept d d' ∧ kindOf d' d.length = some k := by
  obtain ⟨p, hp, w', m, h1, h2, h3⟩ := fresh_link w hb hk ht e
  refine ⟨Kept.of m (fun _ => w') fun w q hq => ?_, h1⟩
  have h3 := h3 q
  split at h3
  · next hpq =>
    subst hpq
    rcases hn with hn | hn
    · refine els_put w m h3 ?_
      unfold tagAt
      rw [h1]
      cases k <;> first | rfl | exact absurd rfl (hn _ _ _)
    · have := hn p hp
      rcases hq with hq | hq
      · exact absurd hq this.1
      · exact absurd hq this.2
  · exact els_same w m h3

theorem Kept.move (w : Wf d) (hx : x < d.length) (h0 : x ≠ 0) (hb : ∀ p, pl.parent d = some p → Elem d p ∧ Deep d p)
    (ho : ∀ p, parentOf d x = some p → Deep d p) (e : moveNode d pl x = .ok d') :
    Kept d d' ∧ Mono d d' ∧ ∃ p, pl.parent d = some p ∧ ∀ y, parentOf d' y = if y = x then some p else parentOf d y := by
  obtain ⟨p, hp, w', h1, h2, h3, h4⟩ := move_ok w hx h0 (fun p hp => .inr (hb p hp).1) e
  refine ⟨Kept.of (Mono.of_eq h2) (fun _ => w') fun w q hq => els_same w (Mono.of_eq h2) (h4 q ?_ ?_), Mono.of_eq h2, p, hp, h3⟩
  · rintro rfl
    have := (hb q hp).2
    rcases hq with hq | hq
    · exact this.1 hq
    · exact this.2 hq
  · intro hc
    have := ho q hc
    rcases hq with hq | hq
    · exact this.1 hq
    · exact this.2 hq

theorem Kept.link_old (w : Wf d) (hx : x < d.length) (h0 : x ≠ 0) (hn : parentOf d x = none) (hp : Elem d p ∧ Deep d p)
    (hc : ¬ Below d x p) (e : link d (.last p) x = .ok d') : Kept d d' := by
  have w' := wf_link w hx h0 hn (p := p) rfl (.inr hp.1) hc e
  have m : Mono d d' := Mono.of_eq fun y => link_kind e
  refine Kept.of m (fun _ => w') fun w q hq => els_same w m ?_
  rw [link_kids e fun p' hp' => by cases hp'; exact hp.1.lt, if_neg]
  intro hpq
  cases hpq
  rcases hq with hq | hq
  · exact hp.2.1 hq
  · exact hp.2.2 hq

theorem Kept.modify {f : Kind → Kind} (hf : ∀ k, kindOf d x = some k → Sim (some k) (some (f k))) :
    Kept d (d.modify x fun n => { n with kind := f n.kind }) := by
  have hs : ∀ y, Sim (kindOf d y) (kindOf (d.modify x fun n => { n with kind := f n.kind }) y) := by
    intro y
    unfold kindOf
    rw [get_modify]
    split
    · next h =>
      subst h
      cases hd : d[x]? with
      | none => exact .inl rfl
      | some nd => exact hf nd.kind (by unfold kindOf; rw [hd]; rfl)
    · exact .inl rfl
  have m : Mono d (d.modify x fun n => { n with kind := f n.kind }) := fun y k hk => hk ▸ hs y
  refine Kept.of m (fun w => (sim_modify hf w).1) fun w q _ => els_same w m ((sim_modify hf w).2.2 q)

/-- The root is there, with elements of some names in it. -/
def Has (d : Dom) (l : List K) : Prop :=
  ∃ r, els d 0 = [r] ∧ tagAt d r = some (.html, .k .html) ∧ (els d r).map (tagAt d) = l.map fun k => some (.html, .k k)

theorem els_tag (h : x ∈ els d p) : ∃ v, tagAt d x = some v := by
  unfold els at h
  exact Option.isSome_iff_exists.mp (List.mem_filter.mp h).2

theorem Has.kept {l : List K} (h : Has d l) (w : Wf d) (u : Kept d d') : Has d' l := by
  obtain ⟨r, h1, h2, h3⟩ := h
  refine ⟨r, by rw [u.root w, h1], u.tags _ _ h2, ?_⟩
  rw [u.tops w r (by rw [h1]; simp), ← h3]
  refine List.map_congr_left fun x hx => ?_
  obtain ⟨v, hv⟩ := els_tag hx
  rw [hv, u.tags _ _ hv]

theorem els_none (h : d.length ≤ p) : els d p = [] := by
  unfold els kidsOf
  rw [List.getElem?_eq_none h]
  rfl

/-- A new element behind the children of a node. -/
theorem els_last {t : Tag} {a : List At} (w : Wf d) (hb : p = 0 ∨ Elem d p) (e : link (d ++ [⟨.elem .html t a, none, []⟩]) (.last p) d.length = .ok d') :
    Wf d' ∧ (∀ x v, tagAt d x = some v → tagAt d' x = some v) ∧ tagAt d' d.length = some (.html, t) ∧ els d' p = els d p ++ [d.length] ∧
      ∀ q, q ≠ p → els d' q = els d q := by
  obtain ⟨p', hp, w', m, h1, h2, h3⟩ := fresh_link (pl := .last p) w (fun p' hp' => by cases hp'; exact hb) (by simp) (by simp) e
  cases hp
  have ht : tagAt d' d.length = some (.html, t) := by unfold tagAt; rw [h1]
  refine ⟨w', fun _ _ => tag_kept m, ht, ?_, fun q hq => els_same w m (by rw [h3, if_neg (Ne.symm hq)])⟩
  unfold els
  rw [h3, if_pos rfl]
  show List.filter _ (kidsOf d p ++ [d.length]) = _
  rw [List.filter_append]
  congr 1
  · exact List.filter_congr fun x hx => by rw [tag_mono m (kind_ne (kid_lt w hx))]
  · rw [List.filter_cons_of_pos (by rw [ht]; rfl)]
    rfl

theorem Has.last {l : List K} {k : K} {a : List At} (w : Wf d) (h : Has d l) (hp : p ∈ els d 0)
    (e : link (d ++ [⟨.elem .html (.k k) a, none, []⟩]) (.last p) d.length = .ok d') : Has d' (l ++ [k]) := by
  obtain ⟨r, h1, h2, h3⟩ := h
  rw [h1] at hp
  cases List.mem_singleton.mp hp
  have hne : (0 : Nat) ≠ p := by
    rintro rfl
    unfold tagAt at h2
    rw [w.doc] at h2
    cases h2
  obtain ⟨-, g1, g2, g3, g4⟩ := els_last w (.inr (tag_elem h2)) e
  refine ⟨p, by rw [g4 0 hne, h1], g1 _ _ h2, ?_⟩
  rw [g3, List.map_append, List.map_append, ← h3]
  congr 1
  · refine List.map_congr_left fun x hx => ?_
    obtain ⟨v, hv⟩ := els_tag hx
    rw [hv, g1 _ _ hv]
  · simp [g2]

theorem wf_init : Wf init.dom where
  doc := rfl
  top := rfl
  only x h := by
    have := lt_of_kind h
    simp [Model.HtmlTree.init] at this
    exact this
  kid x p := by
    have h1 : kidsOf init.dom p = [] := by
      rcases p with _ | p <;> rfl
    have h2 : parentOf init.dom x = none := by
      rcases x with _ | x <;> rfl
    rw [h1, h2]; simp
  once p := by
    have h1 : kidsOf init.dom p = [] := by
      rcases p with _ | p <;> rfl
    rw [h1]; simp
  box x p h := by
    have h2 : parentOf init.dom x = none := by
      rcases x with _ | x <;> rfl
    rw [h2] at h; cases h
  text x t h := by
    have := lt_of_kind h
    simp [Model.HtmlTree.init] at this
    subst this
    cases h
  rank := ⟨fun _ => 0, fun x p h => by
    have h2 : parentOf init.dom x = none := by
      rcases x with _ | x <;> rfl
    rw [h2] at h; cases h⟩

end Verif.Proof.HtmlTree.Forest
