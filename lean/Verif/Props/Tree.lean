import Verif.Proof.TreeRun

/-!
# Tree container: C10, C11, C12, C13, C14, C15, C16, C66

`Spec.Forest` says what a history of calls builds: an ordered forest with named nodes, where a new node gets the smallest
unused positive name.  A history is `Valid` if every call is given positions and nodes of the forest at that time, and
`SafeAll` if no tree is moved behind the children of one of its own nodes (see C12 for that case).  `run ops` is the
forest after the history.
-/
namespace Verif.Props.Tree
open Verif.Model.Tree Verif.Spec Verif.Spec.Forest
open Verif.Proof.Tree (Rep run_rep isNode_mem under_spec)
variable {α : Type}

/-- The parent of the node or place `p`, with its parent. -/
def above (f : Forest α) (p : Nat) : It := if p = 0 then ⟨0, 0⟩ else ⟨(parent? f p).getD 0, p⟩

/-- The tree shows the forest: loops over siblings, `parent()` and `size()`. -/
structure Shows (t : T α) (f : Forest α) : Prop where
  top : ∃ b, begin0 t = some b ∧ walk t t.len b end0 = some ((top f).map fun e => (⟨0, e.1⟩, e.2))
  kids : ∀ p x, IsNode f p x → ∃ b e, It.begin t ⟨p, x⟩ = some b ∧ It.fin ⟨p, x⟩ = some e ∧
    walk t t.len b e = some ((Forest.top (under f x)).map fun e => (⟨x, e.1⟩, e.2))
  parent : ∀ p x, IsNode f p x → It.up t ⟨p, x⟩ = some (above f p)
  size : Model.Tree.size t = some f.size
  sizeAt : ∀ p x v k, IsNode f p x → find f x = some (v, k) → Model.Tree.sizeAt t x = some (1 + k.size)
  empty : isEmpty t = some (decide (f.size = 0))

theorem shows_of_rep {t : T α} {f l} (R : Rep t f .nil l) : Shows t f := by
  refine ⟨⟨⟨0, t.child 0⟩, ?_, ?_⟩, ?_, ?_, Proof.Tree.size_rep R, fun p x v k _ h => Proof.Tree.sizeAt_rep R h, ?_⟩
  · unfold begin0 T.rd
    rw [if_pos R.len]; rfl
  · have := R.walk (p := 0) (Or.inl rfl)
    simpa [under, end0] using this
  · intro p x hn
    have hx := isNode_mem hn
    have hx0 : x ≠ 0 := by rintro rfl; exact R.f0 hx
    refine ⟨⟨x, t.child x⟩, ⟨x, 0⟩, ?_, ?_, R.walk (Or.inr hx)⟩
    · unfold It.begin T.rd
      dsimp only
      rw [if_neg hx0, if_pos (R.f_lt hx).2]; rfl
    · unfold It.fin
      rw [if_neg hx0]
  · intro p x hn
    unfold It.up above T.rd
    dsimp only
    by_cases hp : p = 0
    · rw [if_pos hp, if_pos hp, hp]; rfl
    · have hpf := hn.1.resolve_left hp
      rw [if_neg hp, if_neg hp, if_pos (R.f_lt hpf).2, R.parent? hpf]; rfl
  · unfold isEmpty
    rw [Proof.Tree.size_rep R]; rfl

/-- C10. After any history the tree shows the forest that the history prescribes; `insert` returns the new node at the
given place, `erase` the following sibling. -/
theorem C10 [Inhabited α] (ops : List (Op α)) (hv : Valid .nil ops) (hs : SafeAll .nil ops) :
    ∃ t, execAll T.empty ops = some t ∧ Shows t (run ops) ∧
      (∀ p pos v, IsPos (run ops) p pos →
        ∃ t', insert t ⟨p, pos⟩ v = some (t', ⟨p, fresh (run ops)⟩) ∧ Shows t' (run (ops ++ [.insert p pos v]))) ∧
      (∀ p x, IsNode (run ops) p x →
        ∃ t' A B, erase t ⟨p, x⟩ = some (t', ⟨p, B.headD 0⟩) ∧ children (run ops) p = A ++ x :: B ∧
          Shows t' (run (ops ++ [.erase p x]))) := by
  obtain ⟨t, l, e, R, _⟩ := run_rep hv hs
  refine ⟨t, e, shows_of_rep R, ?_, ?_⟩
  · intro p pos v hp
    obtain ⟨t', l', e', R', _⟩ := Proof.Tree.insert_rep R hp v
    refine ⟨t', e', ?_⟩
    have : run (ops ++ [.insert p pos v]) = Forest.insert p pos (fresh (run ops)) v .nil (run ops) := by
      simp [run, step]
    rw [this]
    exact shows_of_rep R'
  · intro p x hn
    obtain ⟨A, B, eAB⟩ := List.append_of_mem hn.2
    obtain ⟨t', l', e', R', _⟩ := Proof.Tree.erase_rep R hn
    refine ⟨t', A, B, ?_, eAB, ?_⟩
    · rw [e', ← R.next_eq hn, (R.chain p hn.1).nx A x B eAB]
    · have : run (ops ++ [.erase p x]) = Forest.erase x (run ops) := by simp [run, step]
      rw [this]
      exact shows_of_rep R'

/-- A tree with two roots, the first with two children, after an erasure and a move. -/
def sample : List (Op Nat) :=
  [.insert 0 0 10, .insert 0 0 20, .insert 1 0 30, .insert 1 3 40, .insert 4 0 50, .erase 1 3, .move 2 0 1 4, .insert 1 0 60]

example : Valid .nil sample ∧ SafeAll .nil sample := by decide +kernel

example : run sample = .cons 1 10 (.cons 3 60 .nil .nil) (.cons 2 20 (.cons 4 40 (.cons 5 50 .nil .nil) .nil) .nil) := by
  decide +kernel

example : IsPos (run sample) 2 4 ∧ IsNode (run sample) 4 5 := by decide +kernel

/-- C11. Every slot but the sentinel is a node of the forest or free, never both, and no slot is twice in either; the
storage is as long as the largest number of nodes since the last `clear` needs.  `insert` takes an unused slot and leaves
all nodes as they are; `erase` frees exactly the slots of the subtree and leaves all others as they are. -/
theorem C11 [Inhabited α] (ops : List (Op α)) (hv : Valid .nil ops) (hs : SafeAll .nil ops) :
    ∃ t free, execAll T.empty ops = some t ∧ freeNodes t t.len (t.next 0) = some free ∧
      (ids (run ops) ++ free).Nodup ∧ (∀ i, i ∈ ids (run ops) ++ free ↔ 1 ≤ i ∧ i < t.len) ∧
      t.len = peak .nil 0 ops + 1 ∧
      (∀ p pos v, IsPos (run ops) p pos →
        ∃ t' n, insert t ⟨p, pos⟩ v = some (t', ⟨p, n⟩) ∧ n ∉ ids (run ops) ∧
          ∀ e ∈ nodes (run ops), ∀ q, It.deref t' ⟨q, e.1⟩ = some e.2 ∧
            (IsNode (run ops) q e.1 → IsNode (run (ops ++ [.insert p pos v])) q e.1)) ∧
      (∀ p x, IsNode (run ops) p x →
        ∃ t' free' it, erase t ⟨p, x⟩ = some (t', it) ∧ freeNodes t' t'.len (t'.next 0) = some free' ∧
          (∀ i, i ∈ free' ↔ i ∈ free ∨ inside (run ops) x i) ∧
          ∀ e ∈ nodes (run ops), ¬ inside (run ops) x e.1 → ∀ q, It.deref t' ⟨q, e.1⟩ = some e.2 ∧
            (IsNode (run ops) q e.1 → IsNode (run (ops ++ [.erase p x])) q e.1)) := by
  obtain ⟨t, l, e, R, hlen⟩ := run_rep hv hs
  have hpart : ∀ {t : T α} {f l}, Rep t f .nil l → ∀ i, i ∈ ids f ++ l ↔ 1 ≤ i ∧ i < t.len := by
    intro t f l R i
    have := R.range i
    simp only [ids, List.nil_append] at this
    exact this.symm
  have hder : ∀ {t : T α} {f l}, Rep t f .nil l → ∀ e ∈ nodes f, ∀ q, It.deref t ⟨q, e.1⟩ = some e.2 := by
    intro t f l R e he q
    have hi : e.1 ∈ ids f := by rw [ids_eq]; exact List.mem_map_of_mem he
    unfold It.deref T.rd
    dsimp only
    rw [if_neg (by intro w; rw [w] at hi; exact R.f0 hi), if_pos (R.f_lt hi).2, R.val e (by simp [he])]
  refine ⟨t, l, e, R.freeNodes, ?_, hpart R, hlen, ?_, ?_⟩
  · have := R.nd
    simpa [ids] using this
  · intro p pos v hp
    obtain ⟨t', l', e', R', _, h1, h2⟩ := Proof.Tree.insert_rep R hp v
    have hrun : run (ops ++ [.insert p pos v]) = Forest.insert p pos (fresh (run ops)) v .nil (run ops) := by
      simp [run, step]
    obtain ⟨A, B, c1, c2, c3, c4, c5, c6, hperm⟩ := insert_spec (v := v) (k := .nil) R.ndf R.f0 hp h2 h1 (by simp [ids])
    refine ⟨t', _, e', h2, fun e he q => ⟨?_, ?_⟩⟩
    · apply hder R'
      rw [hperm.mem_iff]
      simp [he]
    · intro hn
      rw [hrun]
      refine ⟨hn.1.imp id fun w => ?_, ?_⟩
      · have := (hperm.map Prod.fst).mem_iff (a := q)
        rw [← ids_eq] at this
        rw [this]
        simp [← ids_eq, w]
      · by_cases hqp : q = p
        · subst hqp
          have := hn.2
          rw [c1] at this
          rw [c3]
          simp only [List.mem_append, List.mem_cons] at this ⊢
          tauto
        · rw [c4 q hqp hn.1]; exact hn.2
  · intro p x hn
    have hx := isNode_mem hn
    obtain ⟨t', l', e', R', hl'⟩ := Proof.Tree.erase_rep R hn
    obtain ⟨v, k, p', A, B, hf, _, hp', c1, c2, c3, c4, c5, hperm⟩ := erase_spec R.ndf R.f0 hx
    have hd : ∀ i, inside (run ops) x i ↔ i ∈ x :: ids k := by
      intro i
      unfold inside descendants
      rw [hf]; simp
    have hids : (ids (run ops)).Perm (x :: ids k ++ ids (Forest.erase x (run ops))) := by
      have := hperm.map Prod.fst
      simpa [ids_eq] using this
    have hdis : ∀ i, i ∈ x :: ids k → i ∉ ids (Forest.erase x (run ops)) := by
      intro i h1 h2
      have := hids.nodup_iff.mp R.ndf
      exact (List.nodup_append.mp this).2.2 i h1 i h2 rfl
    have hrun : run (ops ++ [.erase p x]) = Forest.erase x (run ops) := by simp [run, step]
    refine ⟨t', l', _, e', R'.freeNodes, ?_, ?_⟩
    · intro i
      have h1 := hpart R i
      have h2 := hpart R' i
      rw [hl', ← h1] at h2
      simp only [List.mem_append, hids.mem_iff] at h2
      rw [hd]
      constructor
      · intro w
        rcases h2.mp (Or.inr w) with (w' | w') | w'
        · exact Or.inr w'
        · exact absurd w (R'.fl' w')
        · exact Or.inl w'
      · rintro (w | w)
        · rcases h2.mpr (Or.inr w) with w' | w'
          · exact absurd w (R.fl' (hids.mem_iff.mpr (List.mem_append.mpr (Or.inr w'))))
          · exact w'
        · rcases h2.mpr (Or.inl (Or.inl w)) with w' | w'
          · exact absurd w' (hdis i w)
          · exact w'
    · intro e he hni q
      have hmem : e ∈ nodes (Forest.erase x (run ops)) := by
        have := hperm.mem_iff.mp he
        rw [List.mem_append] at this
        refine this.resolve_left fun w => hni ?_
        rw [hd]
        rcases List.mem_cons.mp w with w | w
        · rw [w]; simp
        · rw [ids_eq]; exact List.mem_cons_of_mem _ (List.mem_map_of_mem w)
      refine ⟨hder R' e hmem q, fun hq => ?_⟩
      have hex : e.1 ∈ ids (Forest.erase x (run ops)) := by rw [ids_eq]; exact List.mem_map_of_mem hmem
      rw [hrun]
      have hqe : q = 0 ∨ q ∈ ids (Forest.erase x (run ops)) := by
        refine hq.1.imp id fun w => ?_
        have := hids.mem_iff.mp w
        rw [List.mem_append] at this
        refine this.resolve_left fun w' => hni ?_
        have hq0 : q ≠ 0 := by rintro rfl; exact R.f0 w
        have hk := hq.2
        rw [children, if_neg hq0] at hk
        have := (Proof.Tree.kid_descendant R.ndf (s := x) hk).mpr (by
          have := (hd q).mpr w'
          exact this)
        exact Or.inr this
      refine ⟨hqe, ?_⟩
      by_cases hqp : q = p'
      · subst hqp
        have := hq.2
        rw [c1] at this
        rw [c2]
        have hne : e.1 ≠ x := fun w => hni (Or.inl w)
        simp only [List.mem_append, List.mem_cons] at this ⊢
        tauto
      · rw [c3 q hqp hqe]; exact hq.2

example : peak .nil 0 sample = 5 ∧ size (run sample) = 5 := by decide +kernel

example : IsNode (run sample) 2 4 ∧ inside (run sample) 4 5 ∧ ¬ inside (run sample) 4 2 := by decide +kernel

/-- C12 as stated: a move to a place inside the moved tree throws, any other keeps all nodes. -/
def C12_statement : Prop :=
  ∀ (ops : List (Op Nat)) (p pos q x : Nat), Valid .nil ops → SafeAll .nil ops → IsPos (run ops) p pos →
    IsNode (run ops) q x →
    ∃ t, execAll T.empty ops = some t ∧
      ((inside (run ops) x pos ∨ inside (run ops) x p) → ∃ r, move t ⟨p, pos⟩ ⟨q, x⟩ = some r ∧ r matches .throws) ∧
      (¬ (inside (run ops) x pos ∨ inside (run ops) x p) →
        ∃ t' v k, find (run ops) x = some (v, k) ∧ move t ⟨p, pos⟩ ⟨q, x⟩ = some (.ok (t', ⟨p, x⟩)) ∧
          Shows t' (Forest.insert p pos x v k (Forest.erase x (run ops))))

/-- Moving a node behind its own children does not throw: the node becomes its own child, and the tree loses it. -/
theorem C12_cycle :
    ∃ t t', execAll T.empty [.insert 0 0 7] = some t ∧ Model.Tree.size t = some 1 ∧
      move t ⟨1, 0⟩ ⟨0, 1⟩ = some (.ok (t', ⟨1, 1⟩)) ∧ Model.Tree.size t' = some 0 ∧
      t'.parent 1 = 1 ∧ t'.child 1 = 1 := by
  have h : (execAll T.empty [.insert 0 0 7]).bind (fun t => (move t ⟨1, 0⟩ ⟨0, 1⟩).bind fun r =>
      match r with
      | .ok y => some (Model.Tree.size t, y.2, Model.Tree.size y.1, y.1.parent 1, y.1.child 1)
      | .throws => none) = some (some 1, ⟨1, 1⟩, some 0, 1, 1) := by decide +kernel
  obtain ⟨t, e, h⟩ := Option.bind_eq_some_iff.mp h
  obtain ⟨r, e1, h⟩ := Option.bind_eq_some_iff.mp h
  cases r with
  | throws => simp at h
  | ok y =>
    obtain ⟨t', it⟩ := y
    simp only [Option.some.injEq, Prod.mk.injEq] at h
    obtain ⟨h1, rfl, h2, h3, h4⟩ := h
    exact ⟨t, t', e, h1, e1, h2, h3, h4⟩

theorem C12_statement_false : ¬ C12_statement := by
  intro h
  obtain ⟨t, e, h1, _⟩ := h [.insert 0 0 7] 1 0 0 1 (by decide) (by decide) (by decide) (by decide)
  obtain ⟨t0, t', e0, _, e1, _⟩ := C12_cycle
  rw [e0] at e
  obtain rfl : t0 = t := by simpa using e
  obtain ⟨r, e2, hr⟩ := h1 (by decide)
  rw [e1] at e2
  obtain rfl : Res.ok (t', ⟨1, 1⟩) = r := by simpa using e2
  simp at hr

/-- C12 except for the place behind the children of a node of the moved tree: the move throws exactly if the place lies
inside, and else the tree shows the forest with the subtree, unchanged inside, at its new place.
Missing: that place, where the code builds a cycle (`C12_cycle`). -/
theorem C12_partial [Inhabited α] (ops : List (Op α)) (p pos q x : Nat) (hv : Valid .nil ops) (hs : SafeAll .nil ops)
    (hp : IsPos (run ops) p pos) (hn : IsNode (run ops) q x) (safe : ¬ (pos = 0 ∧ inside (run ops) x p)) :
    ∃ t, execAll T.empty ops = some t ∧
      ((inside (run ops) x pos ∨ inside (run ops) x p) → move t ⟨p, pos⟩ ⟨q, x⟩ = some .throws) ∧
      (¬ (inside (run ops) x pos ∨ inside (run ops) x p) →
        ∃ t' v k, find (run ops) x = some (v, k) ∧ move t ⟨p, pos⟩ ⟨q, x⟩ = some (.ok (t', ⟨p, x⟩)) ∧
          Shows t' (Forest.insert p pos x v k (Forest.erase x (run ops))) ∧
          (nodes (Forest.insert p pos x v k (Forest.erase x (run ops)))).Perm (nodes (run ops))) := by
  obtain ⟨t, l, e, R, _⟩ := run_rep hv hs
  have hx := isNode_mem hn
  refine ⟨t, e, ?_, ?_⟩
  · intro h
    apply Proof.Tree.move_throws R hp hn
    rcases h with h | h
    · exact h
    · exact Proof.Tree.inside_kid R.ndf R.f0 hx (fun w => safe ⟨w, h⟩) hp h
  · intro h
    obtain ⟨t', e', R', _⟩ := Proof.Tree.move_rep R hp hn (fun w => h (Or.inr w)) (fun w => h (Or.inl w))
    obtain ⟨v, k, hf⟩ := find_some hx
    have hm : Forest.move p pos x (run ops) = Forest.insert p pos x v k (Forest.erase x (run ops)) := by
      unfold Forest.move
      rw [if_neg h, hf]
    have hperm := nodes_erase R.ndf hf
    have hids : (ids (run ops)).Perm (x :: ids k ++ ids (Forest.erase x (run ops))) := by
      have := hperm.map Prod.fst
      simpa [ids_eq] using this
    rw [hm] at R'
    refine ⟨t', v, k, hf, e', shows_of_rep R', ?_⟩
    -- the nodes are the same: same names, same values
    have hnd := hids.nodup_iff.mp R.ndf
    have hpe : p = 0 ∨ p ∈ ids (Forest.erase x (run ops)) := by
      refine hp.1.imp id fun w => ?_
      have := hids.mem_iff.mp w
      rw [List.mem_append] at this
      refine this.resolve_left fun w' => h (Or.inr ?_)
      unfold inside descendants
      rw [hf]
      simpa using w'
    refine List.Perm.trans ?_ hperm.symm
    unfold Forest.insert
    split
    · exact nodes_insertBefore _
    · rename_i hp0
      exact nodes_insertUnder _ (List.nodup_append.mp hnd).2.1 (hpe.resolve_left hp0)

example : IsPos (run sample) 1 3 ∧ IsNode (run sample) 2 4 ∧ ¬ (inside (run sample) 4 3 ∨ inside (run sample) 4 1) := by
  decide +kernel

example : IsPos (run sample) 4 5 ∧ IsNode (run sample) 0 2 ∧ inside (run sample) 2 5 := by decide +kernel

/-- C13 as stated, for a source in the same tree. -/
def C13_statement : Prop :=
  ∀ (ops : List (Op Nat)) (p pos q x v : Nat) (k : Forest Nat), Valid .nil ops → SafeAll .nil ops →
    IsPos (run ops) p pos → IsNode (run ops) q x → find (run ops) x = some (v, k) →
    ∃ t fuel t' n K, execAll T.empty ops = some t ∧ copy none fuel t ⟨p, pos⟩ ⟨q, x⟩ = some (t', ⟨p, n⟩) ∧
      Shows t' (Forest.insert p pos n v K (run ops)) ∧ alike K k

/-- A root with two children, the first of which has a child with a child. -/
def deep : List (Op Nat) := [.insert 0 0 1, .insert 1 0 2, .insert 2 0 3, .insert 3 0 4, .insert 1 0 5]

/-- The copy of the second child becomes a child of the first. -/
theorem C13_wrong_shape :
    ∃ t t' b e, execAll T.empty deep = some t ∧ copy none 4 t ⟨0, 0⟩ ⟨0, 1⟩ = some (t', ⟨0, 6⟩) ∧
      It.begin t' ⟨0, 6⟩ = some b ∧ It.fin ⟨0, 6⟩ = some e ∧
      walk t' t'.len b e = some [(⟨6, 7⟩, 2)] ∧ Model.Tree.size t' = some 10 := by
  have h : (execAll T.empty deep).bind (fun t => (copy none 4 t ⟨0, 0⟩ ⟨0, 1⟩).bind fun r =>
      (It.begin r.1 ⟨0, 6⟩).bind fun b => (It.fin ⟨0, 6⟩).bind fun e =>
      (walk r.1 r.1.len b e).bind fun w => (Model.Tree.size r.1).bind fun n => some (r.2, w, n)) =
      some (⟨0, 6⟩, [(⟨6, 7⟩, 2)], 10) := by decide +kernel
  obtain ⟨t, e, h⟩ := Option.bind_eq_some_iff.mp h
  obtain ⟨⟨t', it⟩, e1, h⟩ := Option.bind_eq_some_iff.mp h
  obtain ⟨b, e2, h⟩ := Option.bind_eq_some_iff.mp h
  obtain ⟨en, e3, h⟩ := Option.bind_eq_some_iff.mp h
  obtain ⟨w, e4, h⟩ := Option.bind_eq_some_iff.mp h
  obtain ⟨n, e5, h⟩ := Option.bind_eq_some_iff.mp h
  simp only [Option.some.injEq, Prod.mk.injEq] at h
  obtain ⟨rfl, rfl, rfl⟩ := h
  exact ⟨t, t', b, en, e, e1, e2, e3, e4, e5⟩

theorem alike_top : ∀ {f g : Forest α}, alike f g → (top f).length = (top g).length := by
  intro f
  induction f with
  | nil => intro g h; cases g with
    | nil => rfl
    | cons => exact absurd h (by simp [alike])
  | cons i v k s _ hs => intro g h; cases g with
    | nil => exact absurd h (by simp [alike])
    | cons i' v' k' s' => simp [top, hs h.2.2]

theorem C13_statement_false : ¬ C13_statement := by
  intro h
  obtain ⟨t, fuel, t1, n, K, e, e1, sh, al⟩ := h deep 0 0 0 1 1
    (.cons 2 2 (.cons 3 3 (.cons 4 4 .nil .nil) .nil) (.cons 5 5 .nil .nil)) (by decide +kernel) (by decide +kernel)
    (by decide +kernel) (by decide +kernel) (by decide +kernel)
  obtain ⟨t0, t', b, en, e0, e2, e3, e4, e5, _⟩ := C13_wrong_shape
  rw [e0] at e
  obtain rfl : t0 = t := by simpa using e
  have h1 := Proof.Tree.copy_mono e1 (Nat.le_max_left fuel 4)
  have h2 := Proof.Tree.copy_mono e2 (Nat.le_max_right fuel 4)
  rw [h1] at h2
  obtain ⟨rfl, rfl⟩ : t1 = t' ∧ n = 6 := by simpa using h2
  have hrun : Forest.insert 0 0 6 1 K (run deep) =
      .cons 1 1 (.cons 2 2 (.cons 3 3 (.cons 4 4 .nil .nil) .nil) (.cons 5 5 .nil .nil)) (.cons 6 1 K .nil) := by
    have : run deep = .cons 1 1 (.cons 2 2 (.cons 3 3 (.cons 4 4 .nil .nil) .nil) (.cons 5 5 .nil .nil)) .nil := by
      decide +kernel
    rw [this]
    simp [Forest.insert, insertBefore]
  rw [hrun] at sh
  obtain ⟨b', en', f1, f2, f3⟩ := sh.kids 0 6 ⟨Or.inl rfl, by simp [children, roots]⟩
  rw [e3] at f1
  rw [e4] at f2
  obtain rfl : b = b' := by simpa using f1
  obtain rfl : en = en' := by simpa using f2
  rw [e5] at f3
  have hl := congrArg (fun o => (o.getD []).length) f3
  have hu : under (Forest.cons 1 1 (.cons 2 2 (.cons 3 3 (.cons 4 4 .nil .nil) .nil) (.cons 5 5 .nil .nil)) (.cons 6 1 K .nil)) 6
      = K := by simp [under, find]
  rw [hu] at hl
  have := alike_top al
  simp [top] at hl this
  omega

/-- Copying a tree to the end of its own root never ends: for the tree of one node the loop outlasts every bound. -/
theorem C13_self_diverges (fuel : Nat) :
    ∃ t, execAll (T.empty : T Nat) [.insert 0 0 7] = some t ∧ copy none fuel t ⟨1, 0⟩ ⟨0, 1⟩ = none := by
  obtain ⟨t, l, e, R, _⟩ := run_rep (ops := [Op.insert 0 0 7]) (by decide) (by decide)
  exact ⟨t, e, Proof.Tree.copy_self 7 fuel R⟩

/-- C13 for subtrees in which every node with a following sibling has no children or a last child without children, copied
within a tree to a place outside of the subtree.  Missing: other subtrees, where the shape is wrong (`C13_wrong_shape`),
and places inside, where the loop does not end (`C13_self_diverges`). -/
theorem C13_partial [Inhabited α] (ops : List (Op α)) (p pos q x : Nat) (v : α) (k : Forest α) (hv : Valid .nil ops)
    (hs : SafeAll .nil ops) (hp : IsPos (run ops) p pos) (hn : IsNode (run ops) q x) (hf : find (run ops) x = some (v, k))
    (hg : gentle k) (ho : ¬ inside (run ops) x p) (fuel : Nat) (hfuel : k.size ≤ fuel) :
    ∃ t t' n K, execAll T.empty ops = some t ∧ copy none fuel t ⟨p, pos⟩ ⟨q, x⟩ = some (t', ⟨p, n⟩) ∧
      Shows t' (Forest.insert p pos n v K (run ops)) ∧ alike K k ∧ ∀ z ∈ n :: ids K, z ∉ ids (run ops) := by
  obtain ⟨t, l, e, R, _⟩ := run_rep hv hs
  have ha : Proof.Tree.Apart (none : Option (T α)) p x k := by
    intro _
    unfold inside descendants at ho
    rw [hf] at ho
    simpa using ho
  obtain ⟨t', l', K, e', R', al, hnew, _⟩ := Proof.Tree.copy_rep (s := none) R ⟨hf, hn⟩ hg hp ha fuel hfuel
  exact ⟨t, t', _, K, e, e', shows_of_rep R', al, hnew⟩

/-- The same from another tree, to any place. -/
theorem C13_other_partial [Inhabited α] (ops ops' : List (Op α)) (p pos q x : Nat) (v : α) (k : Forest α)
    (hv : Valid .nil ops) (hs : SafeAll .nil ops) (hv' : Valid .nil ops') (hs' : SafeAll .nil ops')
    (hp : IsPos (run ops) p pos) (hn : IsNode (run ops') q x) (hf : find (run ops') x = some (v, k)) (hg : gentle k)
    (fuel : Nat) (hfuel : k.size ≤ fuel) :
    ∃ t s t' n K, execAll T.empty ops = some t ∧ execAll T.empty ops' = some s ∧
      copy (some s) fuel t ⟨p, pos⟩ ⟨q, x⟩ = some (t', ⟨p, n⟩) ∧
      Shows t' (Forest.insert p pos n v K (run ops)) ∧ alike K k ∧ ∀ z ∈ n :: ids K, z ∉ ids (run ops) := by
  obtain ⟨t, l, e, R, _⟩ := run_rep hv hs
  obtain ⟨s, ls, es, Rs, _⟩ := run_rep hv' hs'
  have ha : Proof.Tree.Apart (some s) p x k := fun w => absurd w (by simp)
  obtain ⟨t', l', K, e', R', al, hnew, _⟩ := Proof.Tree.copy_rep (s := some s) R (Rs.src hf hn) hg hp ha fuel hfuel
  exact ⟨t, s, t', _, K, e, es, e', shows_of_rep R', al, hnew⟩

/-- A root with two children, the first of which has two children. -/
def mild : List (Op Nat) := [.insert 0 0 1, .insert 1 0 2, .insert 2 0 3, .insert 2 0 4, .insert 1 0 5]

example : Valid .nil mild ∧ SafeAll .nil mild ∧ IsPos (run mild) 0 1 ∧ IsNode (run mild) 0 1 ∧
    find (run mild) 1 = some (1, .cons 2 2 (.cons 3 3 .nil (.cons 4 4 .nil .nil)) (.cons 5 5 .nil .nil)) ∧
    ¬ inside (run mild) 1 0 := by decide +kernel

example : gentle (.cons 2 2 (.cons 3 3 .nil (.cons 4 4 .nil .nil)) (.cons 5 5 .nil .nil) : Forest Nat) := by
  simp [gentle, lastLeaf]

/-- C14. The depth-first iterator started at a node visits the nodes of its subtree in document order, each once, and then
equals the end. -/
theorem C14 [Inhabited α] (ops : List (Op α)) (hv : Valid .nil ops) (hs : SafeAll .nil ops) (p x : Nat) (v : α)
    (k : Forest α) (hn : IsNode (run ops) p x) (hf : find (run ops) x = some (v, k)) :
    ∃ t its, execAll T.empty ops = some t ∧ visit (stackNext t) t.len [⟨p, x⟩] = some its ∧
      its.map It.idx = ids (Forest.cons x v k .nil) ∧ (its.map It.idx).Nodup ∧
      ∀ it ∈ its, IsNode (run ops) it.parent it.idx := by
  obtain ⟨t, l, e, R, _⟩ := run_rep hv hs
  have S := R.src hf hn
  have hvis := Proof.Tree.visit_stack t.len _ S.hung S.hung.size_le
  have h0 : (roots (Forest.cons x v k .nil)).map (Proof.Tree.mkIt t) = [⟨p, x⟩] := by
    simp [roots, Proof.Tree.mkIt, S.par]
  rw [h0] at hvis
  have hid : ((ids (Forest.cons x v k .nil)).map (Proof.Tree.mkIt t)).map It.idx = ids (Forest.cons x v k .nil) := by
    rw [List.map_map]
    exact List.map_id _
  refine ⟨t, _, e, hvis, hid, by rw [hid]; exact S.hung.nd, ?_⟩
  intro it hit
  obtain ⟨i, hi, rfl⟩ := List.mem_map.mp hit
  apply R.isNode
  simp only [ids, List.append_nil, List.mem_cons] at hi
  rcases hi with rfl | hi
  · exact isNode_mem hn
  · have := (nodes_erase R.ndf hf).map Prod.fst
    rw [← ids_eq] at this
    rw [this.mem_iff]
    simp [← ids_eq, hi]

example : IsNode (run mild) 0 1 ∧
    find (run mild) 1 = some (1, .cons 2 2 (.cons 3 3 .nil (.cons 4 4 .nil .nil)) (.cons 5 5 .nil .nil)) := by decide +kernel

/-- C15. The level-order iterator started at a node visits the nodes of its subtree level by level, left to right, each
once, and then equals the end. -/
theorem C15 [Inhabited α] (ops : List (Op α)) (hv : Valid .nil ops) (hs : SafeAll .nil ops) (p x : Nat) (v : α)
    (k : Forest α) (hn : IsNode (run ops) p x) (hf : find (run ops) x = some (v, k)) :
    ∃ t its, execAll T.empty ops = some t ∧ visit (queueNext t) t.len [⟨p, x⟩] = some its ∧
      its.map It.idx = levels (k.size + 1) (.cons x v k .nil) ∧
      (its.map It.idx).Perm (ids (.cons x v k .nil)) ∧ (its.map It.idx).Nodup ∧
      ∀ it ∈ its, IsNode (run ops) it.parent it.idx := by
  obtain ⟨t, l, e, R, _⟩ := run_rep hv hs
  have S := R.src hf hn
  have hsz : (Forest.cons x v k .nil).size = k.size + 1 := by simp [Forest.size, ids]
  have hvis := Proof.Tree.visit_queue t.len (k.size + 1) (.cons x v k .nil) .nil (by rw [Proof.Tree.append_nil']; exact S.hung)
    (by have := S.hung.size_le; simpa [Forest.size, ids] using this) (by simp [Forest.size, ids])
  have h0 : (roots (Forest.cons x v k .nil) ++ roots (.nil : Forest α)).map (Proof.Tree.mkIt t) = [⟨p, x⟩] := by
    simp [roots, Proof.Tree.mkIt, S.par]
  have hlev : roots (Forest.cons x v k .nil) ++ levels (k.size + 1) (append .nil (nextLevel (.cons x v k .nil))) =
      levels (k.size + 1) (.cons x v k .nil) := by
    rw [append, nextLevel, nextLevel, Proof.Tree.append_nil', levels]
    congr 1
    have hone : ∀ (n : Nat) (f : Forest α), f.size ≤ n → levels (n + 1) f = levels n f := by
      intro n
      induction n with
      | zero =>
        intro f h
        cases f with
        | nil => rfl
        | cons i v k s => rw [Proof.Tree.size_cons] at h; omega
      | succ n ih =>
        intro f h
        rw [levels, levels]
        congr 1
        cases f with
        | nil => simp only [nextLevel, Proof.Tree.levels_nil, roots, List.append_nil]
        | cons i v k s =>
          apply ih
          have := Proof.Tree.size_nextLevel (Forest.cons i v k s)
          simp [roots] at this
          omega
    rw [nextLevel, nextLevel, Proof.Tree.append_nil']
    exact hone k.size k (Nat.le_refl _)
  rw [h0, hlev] at hvis
  have hid : ((levels (k.size + 1) (Forest.cons x v k .nil)).map (Proof.Tree.mkIt t)).map It.idx =
      levels (k.size + 1) (.cons x v k .nil) := by
    rw [List.map_map]
    exact List.map_id _
  have hperm := Proof.Tree.levels_perm (k.size + 1) (Forest.cons x v k .nil) (by omega)
  refine ⟨t, _, e, hvis, hid, by rw [hid]; exact hperm, by rw [hid]; exact hperm.nodup_iff.mpr S.hung.nd, ?_⟩
  intro it hit
  obtain ⟨i, hi, rfl⟩ := List.mem_map.mp hit
  have hi := hperm.mem_iff.mp hi
  apply R.isNode
  simp only [ids, List.append_nil, List.mem_cons] at hi
  rcases hi with rfl | hi
  · exact isNode_mem hn
  · have := (nodes_erase R.ndf hf).map Prod.fst
    rw [← ids_eq] at this
    rw [this.mem_iff]
    simp [← ids_eq, hi]

example : levels 5 (.cons 1 1 (.cons 2 2 (.cons 3 3 .nil (.cons 4 4 .nil .nil)) (.cons 5 5 .nil .nil)) .nil : Forest Nat)
    = [1, 2, 5, 3, 4] := by decide

/-- C16 as stated; `dbg` says whether assertions are compiled in. -/
def C16_statement (dbg : Bool) : Prop :=
  ∀ (ops : List (Op Nat)) (p a : Nat) (A B : List Nat), Valid .nil ops → SafeAll .nil ops →
    p = 0 ∨ p ∈ ids (run ops) → children (run ops) p = A ++ a :: B →
    ∃ t, execAll T.empty ops = some t ∧ It.decr dbg t ⟨p, B.headD 0⟩ = some ⟨p, a⟩

/-- Decrementing the end of the roots gives the first root, and decrementing the second root fails an assertion. -/
theorem C16_roots :
    ∃ t, execAll T.empty [.insert 0 0 7, .insert 0 0 8] = some t ∧
      (∀ dbg, It.decr dbg t ⟨0, 0⟩ = some ⟨0, 1⟩) ∧ It.decr true t ⟨0, 2⟩ = none := by
  have h : (execAll T.empty [.insert 0 0 7, .insert 0 0 8]).bind (fun t =>
      some (It.decr true t ⟨0, 0⟩, It.decr false t ⟨0, 0⟩, It.decr true t ⟨0, 2⟩)) =
      some (some ⟨0, 1⟩, some ⟨0, 1⟩, none) := by decide +kernel
  obtain ⟨t, e, h⟩ := Option.bind_eq_some_iff.mp h
  simp only [Option.some.injEq, Prod.mk.injEq] at h
  refine ⟨t, e, fun dbg => ?_, h.2.2⟩
  cases dbg
  · exact h.2.1
  · exact h.1

theorem C16_statement_false (dbg : Bool) : ¬ C16_statement dbg := by
  intro h
  obtain ⟨t, e, h1⟩ := h [.insert 0 0 7, .insert 0 0 8] 0 2 [1] [] (by decide) (by decide) (by decide) (by decide)
  obtain ⟨t0, e0, h2, _⟩ := C16_roots
  rw [e0] at e
  obtain rfl : t0 = t := by simpa using e
  rw [List.headD_nil, h2 dbg] at h1
  simp at h1

/-- C16 below the roots, with and without assertions; and among the roots, without assertions and not from the end.
Missing: the end of the roots, and the roots when assertions are compiled in (`C16_roots`). -/
theorem C16_partial [Inhabited α] (ops : List (Op α)) (dbg : Bool) (p a : Nat) (A B : List Nat) (hv : Valid .nil ops)
    (hs : SafeAll .nil ops) (hp : p = 0 ∨ p ∈ ids (run ops)) (hc : children (run ops) p = A ++ a :: B)
    (h : p ≠ 0 ∨ (dbg = false ∧ B ≠ [])) :
    ∃ t, execAll T.empty ops = some t ∧ It.decr dbg t ⟨p, B.headD 0⟩ = some ⟨p, a⟩ ∧
      It.incr t ⟨p, a⟩ = some ⟨p, B.headD 0⟩ := by
  obtain ⟨t, l, e, R, _⟩ := run_rep hv hs
  have C := R.chain p hp
  rw [hc] at C
  have hlt : ∀ x ∈ A ++ a :: B, x ≠ 0 ∧ x < t.len := by
    intro x hx
    rw [← hc] at hx
    have := R.f_lt (Proof.Tree.children_sub _ p x hx)
    exact ⟨by omega, this.2⟩
  have hnd := Proof.Tree.children_nodup R.ndf p
  rw [hc] at hnd
  have hpl : p < t.len := by
    rcases hp with rfl | hp
    · exact R.len
    · exact (R.f_lt hp).2
  have hhd : (A ++ a :: B).headD 0 ∈ A ++ a :: B := Proof.Tree.headD_mem (by simp) 0
  refine ⟨t, e, ?_, ?_⟩
  · unfold It.decr T.rd
    dsimp only
    cases B with
    | nil =>
      have hp0 : p ≠ 0 := h.resolve_right (by simp)
      rw [List.headD_nil, if_neg (by simp), if_pos hp0, if_pos hpl, Option.bind_some, C.head, if_pos (hlt _ hhd).2,
        Option.map_some]
      cases A with
      | nil =>
        have := C.pv [] a [] rfl
        rw [if_pos rfl] at this
        rw [List.nil_append, List.headD_cons, this]; rfl
      | cons b A =>
        have := C.pv [] b (A ++ [a]) rfl
        rw [if_pos rfl, Proof.Tree.getLastD_concat] at this
        rw [List.cons_append, List.headD_cons, this]
    | cons b B =>
      have hb := hlt b (by simp)
      rw [List.headD_cons, if_pos hb.1, if_pos hpl, Option.bind_some, if_neg, if_pos hb.2, Option.map_some]
      · have := C.pv (A ++ [a]) b B (by simp)
        rw [if_neg (by simp), Proof.Tree.getLastD_concat] at this
        rw [this]
      · rintro ⟨w, w'⟩
        apply w'
        refine ⟨h.resolve_right (by simp [w]), ?_⟩
        rw [C.head]
        intro w
        have h1 : (A ++ a :: b :: B).headD 0 ∈ A ++ [a] := by
          cases A <;> simp
        have hs : A ++ a :: b :: B = (A ++ [a]) ++ b :: B := by simp
        rw [hs] at hnd
        exact (List.nodup_append.mp hnd).2.2 _ h1 b (by simp) w
  · unfold It.incr T.rd
    dsimp only
    rw [if_neg (hlt a (by simp)).1, if_pos (hlt a (by simp)).2, C.nx A a B rfl]; rfl

example : children (run mild) 1 = [2] ++ 5 :: [] ∧ children (run mild) 2 = [] ++ 3 :: [4] := by decide +kernel

/-- C66 as stated: `front()` and `back()` are the values of the first and last root. -/
def C66_statement : Prop :=
  ∀ (ops : List (Op Nat)), Valid .nil ops → SafeAll .nil ops → top (run ops) ≠ [] →
    ∃ t, execAll T.empty ops = some t ∧ front t = (top (run ops)).head?.map Prod.snd ∧
      back t = (top (run ops)).getLast?.map Prod.snd

theorem C66_back : ∃ t, execAll T.empty [.insert 0 0 7, .insert 0 0 8] = some t ∧ back t = some 7 := by
  have h : (execAll T.empty [.insert 0 0 7, .insert 0 0 8]).bind back = some 7 := by decide +kernel
  exact Option.bind_eq_some_iff.mp h

theorem C66_statement_false : ¬ C66_statement := by
  intro h
  obtain ⟨t, e, _, h1⟩ := h [.insert 0 0 7, .insert 0 0 8] (by decide) (by decide) (by decide)
  obtain ⟨t0, e0, h2⟩ := C66_back
  rw [e0] at e
  obtain rfl : t0 = t := by simpa using e
  rw [h2] at h1
  exact absurd h1 (by decide)

/-- C66 for `front()`, and for `back()` if there is one root.  Missing: `back()` with several roots (`C66_back`). -/
theorem C66_partial [Inhabited α] (ops : List (Op α)) (hv : Valid .nil ops) (hs : SafeAll .nil ops) (e : Nat × α)
    (r : List (Nat × α)) (hr : top (run ops) = e :: r) :
    ∃ t, execAll T.empty ops = some t ∧ front t = some e.2 ∧ (r = [] → back t = some e.2) := by
  obtain ⟨t, l, ex, R, _⟩ := run_rep hv hs
  have he : e ∈ nodes (run ops) := Proof.Tree.top_sub _ e (by rw [hr]; simp)
  have hi : e.1 ∈ ids (run ops) := by rw [ids_eq]; exact List.mem_map_of_mem he
  have C := R.chain 0 (Or.inl rfl)
  have hch : t.child 0 = e.1 := by
    rw [C.head, children, if_pos rfl, ← Proof.Tree.top_roots, hr]; rfl
  have hne : (run ops).size ≠ 0 := by
    have := List.length_pos_of_mem hi
    simp only [Forest.size]
    omega
  have : front t = some e.2 := by
    unfold front isEmpty begin0 T.rd
    rw [Proof.Tree.size_rep R, Option.map_some, Option.bind_some, if_pos R.len, Option.map_some, Option.bind_some, hch,
      decide_eq_false hne]
    unfold It.deref T.rd
    dsimp only
    rw [if_neg (by simp), if_neg (by intro w; rw [w] at hi; exact R.f0 hi), if_pos (R.f_lt hi).2, R.val e (by simp [he])]
  exact ⟨t, ex, this, fun _ => this⟩

example : top (run mild) = [(1, 1)] := by decide +kernel

end Verif.Props.Tree
