import Verif.Proof.TagChar

/-!
# Tag tree: C17, C18, C19, C67

`Spec.Tags` says what a history of calls builds: an ordered forest whose nodes are named by their start tags and carry the
name of their end tag; new tags get the smallest unused positive names.  `single v` says that a node with the value `v`
has no end tag.  A history is `Valid` if every call is given nodes and positions of the forest at that time (a position is
never inside a node without end tag, and no tree is moved into itself) and `SafeAll` if no tree is moved to where it is
(see C19 for that case).  `run single ops` is the forest after the history.
-/
namespace Verif.Props.TagTree
open Verif.Model.TagTree Verif.Spec Verif.Spec.Forest Verif.Spec.Tags
open Verif.Proof.TagTree (Rep run_rep)
open Verif.Proof.Tree (isNode_mem)
variable {α : Type} [Inhabited α]

/-- The tree shows the forest: serial loops in both directions, loops over siblings, `++`, `--`, `parent()`, `*`, `size()`
and `empty()`. -/
structure Shows (t : T α) (f : TF α) : Prop where
  serial : ∃ b, begin0 t = some b ∧ swalk t t.len b = some ((script f).map view) ∧
    sback t t.len 0 = some ((script f).map view).reverse
  top : ∃ b, begin0 t = some b ∧ walk t t.len b 0 = some ((top f).map fun e => (e.1, e.2.1))
  kids : ∀ x ∈ ids f, ∃ b e, beginOf t x = some b ∧ endOf t x = some e ∧ e = close f x ∧
    walk t t.len b e = some ((Forest.top (under f x)).map fun e => (e.1, e.2.1))
  next : ∀ p A x B, p = 0 ∨ p ∈ ids f → children f p = A ++ x :: B →
    incr t x = some (place f p (B.headD 0)) ∧ decr t (place f p (B.headD 0)) = some x
  parent : ∀ p pos, Tags.IsPos f p pos → parent t (place f p pos) = some p
  value : ∀ n ∈ nodes f, deref t n.1 = some n.2.1
  size : Model.TagTree.size t = some f.size
  empty : isEmpty t = some (decide (f.size = 0))

theorem shows_of_rep {t : T α} {f l d} (R : Rep t f l d) : Shows t f := by
  refine ⟨R.swalk, ⟨_, R.begin0, ?_⟩, ?_, fun p A x B hp h => ⟨R.incr hp h, R.decr hp h⟩, fun p pos h => R.parent h, ?_,
    R.size, R.isEmpty⟩
  · have := R.walk (p := 0) (Or.inl rfl)
    simpa [under, close] using this
  · intro x hx
    obtain ⟨h1, h2⟩ := R.beginOf hx
    refine ⟨_, _, h1, h2, rfl, ?_⟩
    by_cases hc : close f x = 0
    · obtain ⟨y, k, hf⟩ := find_some hx
      have hk : k = .nil := (Proof.TagTree.wf_find R.ok hf).1 (by rw [← Proof.TagTree.close_find R.zero hf]; exact hc)
      rw [Proof.TagTree.children_find R.nd R.zero hf, Proof.TagTree.under_find R.zero hf, hk, hc]
      simp only [roots, Forest.top, List.headD_nil, List.map_nil]
      rw [place, if_pos rfl, hc, walk.eq_def]
      simp
    · exact R.walk (Or.inr ⟨hx, hc⟩)
  · intro n hn
    rw [deref, T.rd, if_pos (R.lk.w_lt (R.mem (Proof.TagTree.mem_ids (i := n.1) (x := n.2) hn))), (R.tg n hn).val]

/-- The tag that opens a node, with its value. -/
def opens : Tag α → Option (Nat × α)
  | .single i v => some (i, v)
  | .start i v _ => some (i, v)
  | .stop _ _ => none

theorem opens_script {f : TF α} (w : Proof.TagTree.wf f) : (script f).filterMap opens = (nodes f).map fun n => (n.1, n.2.1) := by
  induction f with
  | nil => rfl
  | cons i x k s hk hs =>
    obtain ⟨w1, w2, w3⟩ := w
    rw [script, nodes]
    split
    · rename_i h
      rw [w1 h]
      simp [opens, hs w3, nodes]
    · simp [opens, hk w2, hs w3, List.filterMap_append, List.filterMap_cons]

theorem script_find {f : TF α} (w : Proof.TagTree.wf f) {x v e k} (h : find f x = some ((v, e), k)) :
    ∃ A B, script f = if e = 0 then A ++ .single x v :: B else A ++ .start x v e :: (script k ++ .stop e x :: B) := by
  induction f with
  | nil => simp [find] at h
  | cons i y c s hc hs =>
    obtain ⟨w1, w2, w3⟩ := w
    rw [find] at h
    rw [script]
    by_cases hx : x = i
    · rw [if_pos hx] at h
      injection h with h
      injection h with h1 h2
      subst h1 h2 hx
      refine ⟨[], script s, ?_⟩
      split <;> rfl
    · rw [if_neg hx] at h
      cases hk : find c x with
      | some r =>
        rw [hk, Option.some_or] at h
        injection h with h
        subst h
        have hy : ¬ y.2 = 0 := by
          intro hy
          rw [w1 hy] at hk
          simp [find] at hk
        obtain ⟨A, B, e1⟩ := hc w2 hk
        rw [if_neg hy, e1]
        refine ⟨.start i y.1 y.2 :: A, B ++ .stop y.2 i :: script s, ?_⟩
        split <;> simp
      | none =>
        rw [hk, Option.none_or] at h
        obtain ⟨A, B, e1⟩ := hs w3 h
        rw [e1]
        by_cases hy : y.2 = 0
        · rw [if_pos hy]
          refine ⟨.single i y.1 :: A, B, ?_⟩
          split <;> simp
        · rw [if_neg hy]
          refine ⟨.start i y.1 y.2 :: (script c ++ .stop y.2 i :: A), B, ?_⟩
          split <;> simp

/-- C17. After any history a serial loop shows the tags of the forest, forwards and backwards, each of them once; every
node with end tag shows as a start tag and a later end tag that refer to each other, and the tags between them are those of
its descendants, which are opened in document order. -/
theorem C17 (single : α → Bool) (ops : List (Op α)) (hv : Valid single .nil ops) (hs : SafeAll single .nil ops) :
    ∃ t b, execAll single T.empty ops = some t ∧ begin0 t = some b ∧
      swalk t t.len b = some ((script (run single ops)).map view) ∧
      sback t t.len 0 = some ((script (run single ops)).map view).reverse ∧
      ((script (run single ops)).map Tag.name).Nodup ∧
      (script (run single ops)).filterMap opens = (nodes (run single ops)).map (fun n => (n.1, n.2.1)) ∧
      ∀ x v e k, find (run single ops) x = some ((v, e), k) → ∃ A B,
        (script (run single ops) = if e = 0 then A ++ .single x v :: B else A ++ .start x v e :: (script k ++ .stop e x :: B)) ∧
        (script k).filterMap opens = (nodes k).map fun n => (n.1, n.2.1) := by
  obtain ⟨t, l, e, R⟩ := run_rep hv hs
  obtain ⟨b, h1, h2, h3⟩ := (shows_of_rep R).serial
  refine ⟨t, b, e, h1, h2, h3, ?_, opens_script R.ok, ?_⟩
  · rw [← Proof.TagTree.names_script]; exact R.lk.ndw
  · intro x v e k h
    obtain ⟨A, B, e1⟩ := script_find R.ok h
    exact ⟨A, B, e1, opens_script (Proof.TagTree.wf_find R.ok h).2⟩

/-- Odd values have no end tag. -/
def odd (v : Nat) : Bool := v % 2 == 1

/-- Two roots, the first with two children, one of them erased later, and a move; the last node reuses a tag. -/
def sample : List (Op Nat) :=
  [.insert 0 0 10, .insert 0 0 20, .insert 1 0 31, .insert 1 5 40, .insert 6 0 51, .erase 1 5, .move 3 0 1 6, .insert 1 0 61]

example : Valid odd .nil sample ∧ SafeAll odd .nil sample := by decide +kernel

example : run odd sample = .cons 1 (10, 2) (.cons 5 (61, 0) .nil .nil)
    (.cons 3 (20, 4) (.cons 6 (40, 7) (.cons 8 (51, 0) .nil .nil) .nil) .nil) := by decide +kernel

example : script (run odd sample) = [.start 1 10 2, .single 5 61, .stop 2 1, .start 3 20 4, .start 6 40 7, .single 8 51,
    .stop 7 6, .stop 4 3] := by decide +kernel

/-- C18. After any history the tree shows the forest; `insert` adds one leaf at the given position and returns it, `erase`
removes the subtree and returns the position of its next sibling (or the end of its siblings). -/
theorem C18 (single : α → Bool) (ops : List (Op α)) (hv : Valid single .nil ops) (hs : SafeAll single .nil ops) :
    ∃ t, execAll single T.empty ops = some t ∧ Shows t (run single ops) ∧
      (∀ p pos v, Tags.IsPos (run single ops) p pos → ∃ i t' n, spot t p pos = some i ∧ insert single t i v = some (t', n) ∧
        n ∉ names (run single ops) ∧ n ≠ 0 ∧ Shows t' (run single (ops ++ [.insert p pos v])) ∧
        ∃ A B, children (run single ops) p = A ++ B ∧ B.headD 0 = pos ∧
          children (run single (ops ++ [.insert p pos v])) p = A ++ n :: B ∧
          children (run single (ops ++ [.insert p pos v])) n = []) ∧
      (∀ p x, IsNode (run single ops) p x → ∃ t' A B, children (run single ops) p = A ++ x :: B ∧
        erase t x = some (t', place (run single ops) p (B.headD 0)) ∧ Shows t' (run single (ops ++ [.erase p x]))) := by
  obtain ⟨t, l, e, R⟩ := run_rep hv hs
  refine ⟨t, e, shows_of_rep R, ?_, ?_⟩
  · intro p pos v hp
    obtain ⟨t', l', e', R'⟩ := Proof.TagTree.insert_rep R hp single v
    have hn := Proof.TagTree.smallest_new R.lk
    have hrun : run single (ops ++ [.insert p pos v]) = Tags.step single (run single ops) (.insert p pos v) := by
      simp [Tags.run]
    rw [hrun]
    have hni : smallest (names (run single ops)) ∉ ids (run single ops) := fun h => hn.1 (R.mem h)
    obtain ⟨A, B, c1, c2, c3, -, -, c4, -⟩ := insert_spec (n := smallest (names (run single ops)))
      (v := (v, if single v then 0 else smallest (smallest (names (run single ops)) :: names (run single ops)))) (k := .nil)
      R.nd R.zero (Proof.TagTree.isPos_of hp) hni hn.2 (by simp [ids])
    exact ⟨_, t', _, R.spot hp, e', hn.1, hn.2, shows_of_rep R', A, B, c1, c2, c3, c4⟩
  · intro p x hn
    obtain ⟨A, B, eAB⟩ := List.append_of_mem hn.2
    obtain ⟨t', l', j, h1, h2, R'⟩ := Proof.TagTree.erase_rep R (isNode_mem hn)
    obtain ⟨y, k, hf, h3, -⟩ := R.around hn.1 eAB
    rw [Proof.TagTree.lastTag_rep R hf 0] at h1
    rw [← Option.some.inj h1, h3] at h2
    refine ⟨t', A, B, eAB, h2, ?_⟩
    have hrun : run single (ops ++ [.erase p x]) = Forest.erase x (run single ops) := by simp [Tags.run, Tags.step]
    rw [hrun]
    exact shows_of_rep R'

example : Tags.IsPos (run odd sample) 3 6 ∧ IsNode (run odd sample) 6 8 := by decide +kernel

/-- Finding: `insert(x.end(), v)` with a node `x` without end tag appends the new node to the whole forest. -/
theorem C18_single_end (single : α → Bool) (ops : List (Op α)) (hv : Valid single .nil ops) (hs : SafeAll single .nil ops)
    (x : Nat) (hx : x ∈ ids (run single ops)) (hc : close (run single ops) x = 0) (v : α) :
    ∃ t i t' n, execAll single T.empty ops = some t ∧ endOf t x = some i ∧ insert single t i v = some (t', n) ∧
      Shows t' (run single (ops ++ [.insert 0 0 v])) := by
  obtain ⟨t, l, e, R⟩ := run_rep hv hs
  have hp : Tags.IsPos (run single ops) 0 0 := ⟨Or.inl rfl, Or.inl rfl⟩
  obtain ⟨t', l', e', R'⟩ := Proof.TagTree.insert_rep R hp single v
  refine ⟨t, 0, t', smallest (names (run single ops)), e, ?_, ?_, ?_⟩
  · rw [(R.beginOf hx).2, hc]
  · rw [place, if_pos rfl, close, if_pos rfl] at e'
    exact e'
  · have hrun : run single (ops ++ [.insert 0 0 v]) = Tags.step single (run single ops) (.insert 0 0 v) := by
      simp [Tags.run]
    rw [hrun]
    exact shows_of_rep R'

example : 8 ∈ ids (run odd sample) ∧ close (run odd sample) 8 = 0 := by decide +kernel

/-- C19 in full: `move(pos, sub)` keeps all nodes and places the subtree before `pos`, for every position outside `sub`. -/
def C19_statement : Prop :=
  ∀ (single : Nat → Bool) (ops : List (Op Nat)), Valid single .nil ops → SafeAll single .nil ops →
    ∃ t, execAll single T.empty ops = some t ∧
      ∀ p pos q x, Tags.Ok (run single ops) (.move p pos q x) → ∃ i t', spot t p pos = some i ∧
        move t i x = some (t', x) ∧ Shows t' (run single (ops ++ [.move p pos q x]))

/-- C19 for a position that is not the place where the subtree already is.  Missing: those positions, where the code loses
the subtree (`C19_loses`). -/
theorem C19_partial (single : α → Bool) (ops : List (Op α)) (hv : Valid single .nil ops) (hs : SafeAll single .nil ops) :
    ∃ t, execAll single T.empty ops = some t ∧
      ∀ p pos q x, Tags.Ok (run single ops) (.move p pos q x) → ¬ Stays (run single ops) p pos x →
        ∃ i t', spot t p pos = some i ∧ move t i x = some (t', x) ∧ Shows t' (run single (ops ++ [.move p pos q x])) ∧
          (nodes (run single (ops ++ [.move p pos q x]))).Perm (nodes (run single ops)) ∧
          ∃ A B, children (run single (ops ++ [.move p pos q x])) p = A ++ x :: B ∧ B.headD 0 = pos := by
  obtain ⟨t, l, e, R⟩ := run_rep hv hs
  refine ⟨t, e, ?_⟩
  intro p pos q x ok hst
  obtain ⟨t', e', R', h1, h2⟩ := Proof.TagTree.move_rep R ok.1 ok.2.1 ok.2.2 hst
  have hrun : run single (ops ++ [.move p pos q x]) = Forest.move p pos x (run single ops) := by simp [Tags.run, Tags.step]
  rw [hrun]
  exact ⟨_, t', R.spot ok.1, e', shows_of_rep R', h1, h2⟩

example : Tags.Ok (run odd sample) (.move 1 5 3 6) ∧ ¬ Stays (run odd sample) 1 5 6 := by decide +kernel

/-- Finding: a subtree moved to where it is gets lost; afterwards the tree shows the forest without it. -/
theorem C19_loses (single : α → Bool) (ops : List (Op α)) (hv : Valid single .nil ops) (hs : SafeAll single .nil ops) :
    ∃ t, execAll single T.empty ops = some t ∧
      ∀ p pos q x, Tags.Ok (run single ops) (.move p pos q x) → Stays (run single ops) p pos x →
        ∃ i t', spot t p pos = some i ∧ move t i x = some (t', x) ∧ Shows t' (Forest.erase x (run single ops)) := by
  obtain ⟨t, l, e, R⟩ := run_rep hv hs
  refine ⟨t, e, ?_⟩
  intro p pos q x ok hst
  obtain ⟨t', d, e', R'⟩ := Proof.TagTree.move_lost R ok.1 ok.2.1 hst
  exact ⟨_, t', R.spot ok.1, e', shows_of_rep R'⟩

example : Tags.Ok (run odd sample) (.move 0 3 0 1) ∧ Stays (run odd sample) 0 3 1 := by decide +kernel

theorem C19_statement_false : ¬ C19_statement := by
  intro h
  have hv : Valid odd .nil sample := by decide +kernel
  have hs : SafeAll odd .nil sample := by decide +kernel
  obtain ⟨t, e, h⟩ := h odd sample hv hs
  obtain ⟨t2, e2, h2⟩ := C19_loses odd sample hv hs
  have : t = t2 := Option.some.inj (e.symm.trans e2)
  subst this
  have ok : Tags.Ok (run odd sample) (.move 0 3 0 1) := by decide +kernel
  have hst : Stays (run odd sample) 0 3 1 := by decide +kernel
  obtain ⟨i, t', a1, a2, S⟩ := h 0 3 0 1 ok
  obtain ⟨i', t'', b1, b2, S'⟩ := h2 0 3 0 1 ok hst
  rw [a1] at b1
  have := Option.some.inj b1
  subst this
  rw [a2] at b2
  have := congrArg Prod.fst (Option.some.inj b2)
  dsimp only at this
  subst this
  have hsz := S.size.symm.trans S'.size
  have h5 : (run odd (sample ++ [.move 0 3 0 1])).size = 5 := by decide +kernel
  have h3 : (Forest.erase 1 (run odd sample)).size = 3 := by decide +kernel
  rw [h5, h3] at hsz
  simp at hsz

/-- C67 in full: a loop with the character iterator yields the texts of all text nodes in document order, forwards and
backwards.  `text v` is the text of a node with value `v` if it is a text node; `zero` is the character behind the end of
a string. -/
def C67_statement : Prop :=
  ∀ (text : Nat → Option (List Nat)) (zero : Nat) (single : Nat → Bool) (ops : List (Op Nat)), text default = none →
    Valid single .nil ops → SafeAll single .nil ops → (∀ s ∈ texts text (run single ops), s.length < 2 ^ 32) →
    ∃ t b c, execAll single T.empty ops = some t ∧ begin0 t = some b ∧ cmake text t b = some c ∧
      ∀ fuel, (texts text (run single ops)).flatten.length ≤ fuel →
        cwalk text zero t fuel c = some (texts text (run single ops)).flatten ∧
        cbackWalk text zero t fuel (0, 0) = some (texts text (run single ops)).flatten.reverse

/-- C67 for forests without empty text nodes.  Missing: empty text nodes, where the loop yields a zero
(`C67_empty`). -/
theorem C67_partial {β : Type} (text : α → Option (List β)) (zero : β) (single : α → Bool) (ops : List (Op α))
    (hd : text default = none) (hv : Valid single .nil ops) (hs : SafeAll single .nil ops)
    (hl : ∀ s ∈ texts text (run single ops), s.length < 2 ^ 32) (he : [] ∉ texts text (run single ops)) :
    ∃ t b c, execAll single T.empty ops = some t ∧ begin0 t = some b ∧ cmake text t b = some c ∧
      ∀ fuel, (texts text (run single ops)).flatten.length ≤ fuel →
        cwalk text zero t fuel c = some (texts text (run single ops)).flatten ∧
        cbackWalk text zero t fuel (0, 0) = some (texts text (run single ops)).flatten.reverse := by
  obtain ⟨t, l, e, R⟩ := run_rep hv hs
  obtain ⟨b, c, h1, h2, h3⟩ := R.cwalk text zero hd
  refine ⟨t, b, c, e, h1, h2, fun fuel hf => ⟨?_, R.cback text zero hd (fun s h => ⟨fun e => he (e ▸ h), hl s h⟩) fuel hf⟩⟩
  have e : ((texts text (run single ops)).flatMap fun s => if s = [] then [zero] else s) = (texts text (run single ops)).flatten := by
    rw [← List.flatMap_id]
    refine List.flatMap_congr fun s h => ?_
    have hne : s ≠ [] := by rintro rfl; exact he h
    rw [if_neg hne]; rfl
  rw [← e] at hf ⊢
  exact h3 fuel hf

/-- Finding: every empty text node yields a zero. -/
theorem C67_empty {β : Type} (text : α → Option (List β)) (zero : β) (single : α → Bool) (ops : List (Op α))
    (hd : text default = none) (hv : Valid single .nil ops) (hs : SafeAll single .nil ops) :
    ∃ t b c, execAll single T.empty ops = some t ∧ begin0 t = some b ∧ cmake text t b = some c ∧
      ∀ fuel, ((texts text (run single ops)).flatMap fun s => if s = [] then [zero] else s).length ≤ fuel →
        cwalk text zero t fuel c = some ((texts text (run single ops)).flatMap fun s => if s = [] then [zero] else s) := by
  obtain ⟨t, l, e, R⟩ := run_rep hv hs
  obtain ⟨b, c, h1, h2, h3⟩ := R.cwalk text zero hd
  exact ⟨t, b, c, e, h1, h2, h3⟩

/-- Odd values are texts: as many characters as the number says tens. -/
def tens (v : Nat) : Option (List Nat) := if odd v then some ((List.range (v / 10)).map (· + v)) else none

example : texts tens (run odd sample) = [[61, 62, 63, 64, 65, 66], [51, 52, 53, 54, 55]] := by decide +kernel

/-- The same with an empty text. -/
example : texts tens (run odd (sample ++ [.insert 0 0 1])) = [[61, 62, 63, 64, 65, 66], [51, 52, 53, 54, 55], []] := by decide +kernel

theorem C67_statement_false : ¬ C67_statement := by
  intro h
  have hv : Valid odd .nil [.insert 0 0 1] := by decide +kernel
  have hs : SafeAll odd .nil [.insert 0 0 1] := by decide +kernel
  have ht : texts tens (run odd [.insert 0 0 1]) = [[]] := by decide +kernel
  obtain ⟨t, b, c, e, h1, h2, h3⟩ := h tens 0 odd [.insert 0 0 1] rfl hv hs (by rw [ht]; simp)
  obtain ⟨t', b', c', e', h1', h2', h3'⟩ := C67_empty tens 0 odd [.insert 0 0 1] rfl hv hs
  have : t = t' := Option.some.inj (e.symm.trans e')
  subst this
  have : b = b' := Option.some.inj (h1.symm.trans h1')
  subst this
  have : c = c' := Option.some.inj (h2.symm.trans h2')
  subst this
  have a := (h3 1 (by rw [ht]; simp)).1
  have a' := h3' 1 (by rw [ht]; simp)
  rw [a, ht] at a'
  simp at a'

end Verif.Props.TagTree
