import Verif.Proof.HtmlTreePlain
import Verif.Spec.HtmlSource
/- Elements and attributes come from start tags, for C130. -/
namespace Verif.Proof.HtmlTree.Source
open Verif.Model.HtmlTree Verif.Proof.HtmlTree.Walk Verif.Proof.HtmlTree.Pure Verif.Spec.HtmlSource
open Verif.Spec.HtmlAtom (codes)

/-- Where elements and attributes come from. -/
structure Src where
  tag : Tag → Prop
  attr : List Nat → List Nat → Prop
  implied : ∀ k ∈ implieds, tag (.k k)
  image : tag (.k .image) → tag (.k .img)

variable {Z : Src}

/-- The attribute comes from there. -/
def From (Z : Src) (a : At) : Prop := ∃ n, Z.attr n a.val ∧ Stem n a.name

def fromAll (Z : Src) (l : List At) : Prop := ∀ a ∈ l, From Z a

def goodK (Z : Src) : Kind → Prop
  | .elem _ t a => Z.tag t ∧ fromAll Z a
  | _ => True

def goodE (Z : Src) (e : Entry) : Prop := Z.tag e.tag ∧ fromAll Z e.attrs

def goodD (Z : Src) (d : Dom) : Prop := ∀ n ∈ d, goodK Z n.kind

def H (Z : Src) : Pred := fun d st f _ _ => goodD Z d ∧ (∀ e ∈ st, goodE Z e) ∧ (∀ e, Fmt.el e ∈ f → goodE Z e) ∧ True

def T (Z : Src) (t : Tag) (a : List At) : Prop := Z.tag t ∧ ∀ x ∈ a, Z.attr x.name x.val

theorem T.all {t : Tag} {a : List At} (h : T Z t a) : fromAll Z a := fun x hx => ⟨_, h.2 x hx, .inl rfl⟩

theorem svg_stem : ∀ e ∈ svgAttrs, Stem (cps e.1) (cps e.2) ∧ ∀ x ∈ foreignAttrs, cps x.1 ≠ cps e.2 := by decide +kernel

theorem url_stem : Stem (cps "definitionurl") (cps "definitionURL") ∧ ∀ x ∈ foreignAttrs, cps x.1 ≠ cps "definitionURL" := by decide +kernel

theorem foreign_stem : ∀ e ∈ foreignAttrs, Stem (cps e.1) (cps e.2.2.2) := by decide +kernel

theorem foreign_from {a : At} (h : Z.attr a.name a.val) : From Z (match foreignAttrs.find? (fun e => cps e.1 == a.name) with
    | some (_, ns, pre, n) => { a with ns := ns, pre := cps pre, name := cps n }
    | none => a) := by
  split
  · next w ns pre e he =>
    have h1 : cps w = a.name := by simpa using List.find?_some he
    exact ⟨_, h, h1 ▸ foreign_stem _ (List.mem_of_find?_eq_some he)⟩
  · exact ⟨_, h, .inl rfl⟩

theorem foreign_same {a : At} {n : List Nat} (h : Z.attr n a.val) (hs : Stem n a.name) (hn : ∀ x ∈ foreignAttrs, cps x.1 ≠ a.name) :
    From Z (match foreignAttrs.find? (fun e => cps e.1 == a.name) with
    | some (_, ns, pre, n) => { a with ns := ns, pre := cps pre, name := cps n }
    | none => a) := by
  split
  · next e he =>
    exact absurd (by simpa using List.find?_some he) (hn _ (List.mem_of_find?_eq_some he))
  · exact ⟨_, h, hs⟩

theorem adjust_from {t : Tag} {a a' : List At} (h : T Z t a) (ha : a' = a ∨ a' = adjustMath a ∨ a' = adjustSvg a) : fromAll Z (adjustForeign a') := by
  intro x hx
  obtain ⟨y, hy, rfl⟩ := List.mem_map.mp hx
  rcases ha with rfl | rfl | rfl
  · exact foreign_from (h.2 y hy)
  · obtain ⟨z, hz, rfl⟩ := List.mem_map.mp hy
    have hv := h.2 z hz
    by_cases hc : (z.name == cps "definitionurl") = true
    · rw [if_pos hc]
      have hz : z.name = cps "definitionurl" := by simpa using hc
      rw [hz] at hv
      exact foreign_same (a := { z with name := cps "definitionURL" }) (n := cps "definitionurl") hv url_stem.1 url_stem.2
    · rw [if_neg hc]
      exact foreign_from hv
  · obtain ⟨z, hz, rfl⟩ := List.mem_map.mp hy
    have hv := h.2 z hz
    cases hf : svgAttrs.find? (fun e => cps e.1 == z.name) with
    | none => exact foreign_from hv
    | some e =>
      have h1 : cps e.1 = z.name := by simpa using List.find?_some hf
      have h2 := svg_stem e (List.mem_of_find?_eq_some hf)
      exact foreign_same (a := { z with name := cps e.2 }) hv (h1 ▸ h2.1) h2.2

theorem good_modify {d : Dom} {i : Nat} {f : Node → Node} (h : goodD Z d) (hf : ∀ n, goodK Z n.kind → goodK Z (f n).kind) : goodD Z (d.modify i f) := by
  intro n hn
  obtain ⟨j, hj⟩ := List.mem_iff_getElem?.mp hn
  rw [List.getElem?_modify] at hj
  cases hd : d[j]? with
  | none => rw [hd] at hj; simp at hj
  | some m =>
    have hm : goodK Z m.kind := h m (List.mem_of_getElem? hd)
    rw [hd] at hj
    simp only [Option.map_eq_map, Option.map_some, Option.some.injEq] at hj
    subst hj
    split
    · exact hf m hm
    · exact hm

theorem good_link {d d' : Dom} {pl : Place} {x : Nat} (h : goodD Z d) (e : link d pl x = .ok d') : goodD Z d' := by
  unfold link at e
  split at e
  · cases e
    exact good_modify (good_modify h fun _ h => h) fun _ h => h
  · split at e
    · cases e
    · cases e
      exact good_modify (good_modify h fun _ h => h) fun _ h => h

theorem good_unlink {d : Dom} {x : Nat} (h : goodD Z d) : goodD Z (unlink d x) := by
  unfold unlink
  split
  · exact h
  · exact good_modify (good_modify h fun _ h => h) fun _ h => h

theorem good_move {d : Dom} {pl : Place} {x : Nat} (h : goodD Z d) : Ens (goodD Z) (moveNode d pl x) := by
  unfold moveNode
  split
  · exact Ens.err
  · exact Ens.ite (fun _ => Ens.err) fun _ => Ens.ite (fun _ => Ens.err) fun _ d' e => good_link (good_unlink h) e

theorem good_add {d : Dom} {n : Node} (h : goodD Z d) (hn : goodK Z n.kind) : goodD Z (d ++ [n]) := by
  intro m hm
  rcases List.mem_append.mp hm with hm | hm
  · exact h m hm
  · cases List.mem_singleton.mp hm; exact hn

theorem good_put {d d' : Dom} {n : Node} {pl : Place} {x : Nat} (e : link (d ++ [n]) pl x = .ok d') (h : goodD Z d) (hn : goodK Z n.kind) : goodD Z d' :=
  good_link (good_add h hn) e

theorem good_merge {n : Nat} : ∀ {a : List At} {d : Dom}, goodD Z d → fromAll Z a → goodD Z (mergeAttrs d n a)
  | [], d, h, _ => h
  | x :: a, d, h, ha => by
    unfold mergeAttrs
    rw [List.foldl_cons]
    refine good_merge (a := a) ?_ fun y hy => ha y (by simp [hy])
    split
    · exact h
    · refine good_modify h fun m hm => ?_
      cases hk : m.kind with
      | elem ns t l =>
        rw [hk] at hm
        refine ⟨hm.1, fun y hy => ?_⟩
        rcases List.mem_append.mp hy with hy | hy
        · exact hm.2 y hy
        · cases List.mem_singleton.mp hy
          exact ha x (by simp)
      | _ => simp only [hk]; trivial

theorem good_moveKids {el : Nat} : ∀ {l : List Nat} {d : Dom}, goodD Z d → Ens (goodD Z) (moveKids el l d)
  | [], _, h => Ens.ok h
  | _ :: _, _, h => Ens.bind (good_move h) fun _ h => good_moveKids h

variable {s : S}

theorem h_insert {ns : Ns} {t : Tag} {a : List At} (h : (H Z).at s) (ha : Z.tag t ∧ fromAll Z a) : Ens (H Z).at (insertForeign s ns t a) := by
  unfold insertForeign
  refine Ens.bind (Q := fun _ => True) Ens.triv fun _ _ => Ens.bind (Q := fun _ => True) Ens.triv fun _ _ => ?_
  refine Ens.bind (Q := goodD Z) (fun d e => good_put e h.1 ha) fun d hd => Ens.ok ⟨hd, ?_, h.2.2⟩
  intro e he
  rcases List.mem_cons.mp he with rfl | he
  · exact ha
  · exact h.2.1 e he

theorem h_commentAt {pl : Place} {t : List Nat} (h : (H Z).at s) : Ens (H Z).at (commentAt s pl t) :=
  Ens.bind (Q := goodD Z) (fun _ e => good_put e h.1 trivial) fun _ hd => Ens.ok ⟨hd, h.2⟩

theorem h_reopen : ∀ {l : List Entry} {s : S}, (H Z).at s → (∀ e ∈ l, goodE Z e) → Ens (H Z).at (reopen s l)
  | [], _, h, _ => Ens.ok h
  | e :: l, s, h, hl => by
    unfold reopen
    refine Ens.bind (h_insert h (hl e (by simp))) fun s' h' => ?_
    refine Ens.bind (Q := fun x => x ∈ s'.stack) (fun x hx => mem_cur hx) fun x hx => ?_
    refine h_reopen ⟨h'.1, h'.2.1, ?_, h'.2.2.2⟩ fun y hy => hl y (by simp [hy])
    intro y hy
    rcases List.mem_cons.mp hy with hy | hy
    · cases hy; exact h'.2.1 x hx
    · exact h'.2.2.1 y hy

theorem h_drop {n : Nat} (h : (H Z).at s) : (H Z).at { s with fmt := dropFmt n s.fmt } := ⟨h.1, h.2.1, fun e he => h.2.2.1 e (drop_mem he), h.2.2.2⟩

theorem h_removeNode {n : Nat} (h : (H Z).at s) : Ens (H Z).at (removeNode s n) := by
  unfold removeNode
  exact Ens.ite (fun _ => Ens.ok ⟨h.1, fun e he => h.2.1 e (List.mem_of_mem_eraseP he), h.2.2⟩) fun _ => Ens.err

theorem h_inner {b : Nat} : ∀ {l : List Entry} {i last : Nat} {bm : Bookmark} {s : S}, (H Z).at s → (∀ e ∈ l, goodE Z e) →
    Ens (fun r => (H Z).at r.2.2) (innerLoop b l i last bm s)
  | [], _, _, _, _, h, _ => Ens.ok h
  | e :: l, i, last, bm, s, h, hl => by
    unfold innerLoop
    have h0 : ∀ c : Bool, (H Z).at (if c = true then { s with fmt := dropFmt e.node s.fmt } else s) := by
      intro c; cases c
      · exact h
      · exact h_drop h
    have h1 := h0 (decide (3 < i) && inFmt e.node s.fmt)
    dsimp only [create]
    have tl : ∀ x ∈ l, goodE Z x := fun x hx => hl x (by simp [hx])
    refine Ens.ite (fun _ => ?_) fun _ => Ens.bind (h_removeNode h1) fun _ h => h_inner h tl
    refine Ens.bind (Q := goodD Z) (good_move (good_add h1.1 (hl e (by simp)))) fun d hd => h_inner ⟨hd, ?_, ?_, h1.2.2.2⟩ tl
    · intro x hx
      obtain ⟨y, hy, rfl⟩ := List.mem_map.mp hx
      have := h1.2.1 y hy
      split
      · exact this
      · exact this
    · intro x hx
      unfold replaceFmt at hx
      obtain ⟨y, hy, hx⟩ := List.mem_map.mp hx
      cases y with
      | marker => cases hx
      | el y =>
        have := h1.2.2.1 y hy
        dsimp only at hx
        split at hx
        · cases hx; exact this
        · cases hx; exact this

theorem h_adopt {fe fb : Entry} (h : (H Z).at s) (hf : goodE Z fe) : Ens (H Z).at (adopt s fe fb) := by
  unfold adopt
  split
  · refine Ens.bind (h_inner h fun e he => h.2.1 e ?_) fun r h => ?_
    · exact above_mem ((List.takeWhile_prefix _).subset (List.mem_reverse.mp he))
    refine Ens.bind (Q := fun _ => True) Ens.triv fun _ _ => ?_
    refine Ens.bind (Q := goodD Z) (good_move h.1) fun d hd => ?_
    dsimp only [create]
    refine Ens.bind (Q := goodD Z) (good_moveKids (good_add hd hf)) fun d hd => ?_
    refine Ens.bind (Q := goodD Z) (fun d e => good_link hd e) fun d hd => ?_
    refine Ens.bind (Q := fun f => ∀ e, Fmt.el e ∈ f → goodE Z e) (fun f e x hx => ?_) fun f hfm => ?_
    · rcases insertFmt_mem e _ hx with hx | hx
      · cases hx; exact hf
      · exact h.2.2.1 x (drop_mem hx)
    refine Ens.bind (h_removeNode (s := { r.2.2 with dom := d, fmt := f }) ⟨hd, h.2.1, hfm, h.2.2.2⟩) fun s' h' => ?_
    refine Ens.bind (Q := fun st => ∀ e ∈ st, goodE Z e) (fun st e x hx => ?_) fun st hst => Ens.ok ⟨h'.1, hst, h'.2.2⟩
    rcases insertAbove_mem e x hx with rfl | hx
    · exact hf
    · exact h'.2.1 x hx
  · exact Ens.err

theorem h_outer {t : Tag} : ∀ {k : Nat} {s : S}, (H Z).at s → Ens (fun r => (H Z).at r.2) (outerLoop t k s)
  | 0, _, h => Ens.ok h
  | k + 1, s, h => by
    unfold outerLoop
    split
    · exact Ens.ok h
    · next fe hfe =>
      refine Ens.ite (fun _ => Ens.ok (h_drop h)) fun _ => ?_
      refine Ens.bind (Q := fun _ => True) Ens.triv fun _ _ => Ens.ite (fun _ => ?_) fun _ => Ens.ok h
      refine Ens.bind (Q := fun _ => True) Ens.triv fun _ _ => ?_
      split
      · exact Ens.ok ⟨h.1, fun e he => h.2.1 e (popUntil_mem he), fun e he => h.2.2.1 e (drop_mem he), h.2.2.2⟩
      · refine Ens.bind (h_adopt h ?_) fun s' h' => h_outer h'
        cases hf : s.stack.find? fun e => e.node == fe.node with
        | none => exact h.2.2.1 fe (findFmt_mem hfe)
        | some e => exact h.2.1 e (List.mem_of_find?_eq_some hf)

theorem h_adoption {t : Tag} (h : (H Z).at s) : Ens (fun r => (H Z).at r.2) (adoption s t) := by
  unfold adoption
  refine Ens.bind (Q := fun _ => True) Ens.triv fun _ _ => Ens.ite (fun _ => ?_) fun _ => h_outer h
  refine Ens.bind (Q := (H Z).at) ?_ fun _ h => Ens.ok h
  unfold pop
  split
  · exact Ens.err
  · next hs => exact Ens.ok ⟨h.1, fun e he => h.2.1 e (by rw [hs]; exact List.mem_cons_of_mem _ he), h.2.2⟩

theorem h_char {c : Nat} (h : (H Z).at s) : Ens (H Z).at (insertChar s c) := by
  unfold insertChar
  refine Ens.bind (Q := fun _ => True) Ens.triv fun _ _ => Ens.bind (Q := fun _ => True) Ens.triv fun _ _ => ?_
  split
  · exact Ens.err
  · refine Ens.ite (fun _ => Ens.ok h) fun _ => ?_
    split
    · exact Ens.ok ⟨good_modify h.1 fun _ _ => trivial, h.2⟩
    · exact Ens.bind (Q := goodD Z) (fun _ e => good_put e h.1 trivial) fun _ hd => Ens.ok ⟨hd, h.2⟩

theorem closed : Closed (T Z) (goodD Z) (goodD Z) (H Z) where
  implied k hk := ⟨Z.implied k hk, fun a ha => by cases ha⟩
  image a h := ⟨Z.image h.1, h.2⟩
  init n hn := by cases List.mem_singleton.mp hn; trivial
  weak d h := h
  commentA s t h := Ens.bind (Q := goodD Z) (fun _ e => good_put e h trivial) fun _ hd => Ens.ok hd
  commentB s t h := Ens.bind (Q := goodD Z) (fun _ e => good_put e h trivial) fun _ hd => Ens.ok hd
  doctype d x y z h := fun _ e => good_put e h trivial
  root s a h ht := by
    unfold insertRoot
    dsimp only [create]
    refine Ens.bind (Q := goodD Z) (fun _ e => good_put e h.1 ⟨ht.1, ht.all⟩) fun d hd => Ens.ok ⟨hd, ?_, ?_, ?_⟩
    · intro e he
      change e ∈ _ :: s.stack at he
      rw [h.2.1] at he
      cases List.mem_singleton.mp he
      exact ⟨ht.1, ht.all⟩
    · intro e he
      change _ ∈ s.fmt at he
      rw [h.2.2.1] at he
      cases he
    · trivial
  sub h h1 h2 := ⟨h.1, fun e he => h.2.1 e (h1.subset he), fun e he => h.2.2.1 e ((h2 _ he).resolve_left (by simp)), h.2.2.2⟩
  pushHead h := ⟨h.1, fun e he => by
    rcases List.mem_cons.mp he with rfl | he
    · exact ⟨Z.implied _ (by decide), fun a ha => by cases ha⟩
    · exact h.2.1 e he, h.2.2⟩
  insert s t a h ht := h_insert h ⟨ht.1, ht.all⟩
  head s a h ht := Ens.bind (h_insert h ⟨ht.1, ht.all⟩) fun _ h => Ens.bind (Q := fun _ => True) Ens.triv fun _ _ => Ens.ok h
  fmtEl s t a h ht := by
    refine Ens.bind (h_insert h ⟨ht.1, ht.all⟩) fun s' h => Ens.bind (Q := fun x => x ∈ s'.stack) (fun x hx => mem_cur hx) fun x hx => Ens.ok ⟨h.1, h.2.1, ?_, h.2.2.2⟩
    intro y hy
    rcases pushFmt_mem hy with hy | hy
    · cases hy; exact h.2.1 x hx
    · exact h.2.2.1 y hy
  reconstruct s h := by
    unfold reconstruct
    refine h_reopen ⟨h.1, h.2.1, fun e he => h.2.2.1 e (toOpen_mem.2 _ he), h.2.2.2⟩ fun e he => h.2.2.1 e (toOpen_mem.1 e (List.mem_reverse.mp he))
  adoption s t h := h_adoption h
  char s c h := h_char h
  comment s t h := Ens.bind (Q := fun _ => True) Ens.triv fun _ _ => Ens.bind (Q := fun _ => True) Ens.triv fun _ _ => h_commentAt h
  commentTop s t h := h_commentAt h
  commentAt s e t h _ := h_commentAt h
  merge h _ ht := ⟨good_merge h.1 ht.all, h.2⟩
  svg s t a ns h ht _ _ := h_insert (s := keepSlots s _) h ⟨ht.1, adjust_from ht (.inr (.inl rfl))⟩
  foreign s e l t a a' h ht _ _ ha := h_insert (s := keepSlots s _) h ⟨ht.1, adjust_from ht ha⟩

theorem slotted_mem : ∀ {sl : List (List Nat)} {l : List (List Nat × List Nat)} {x : At}, x ∈ slotted sl l → (x.name, x.val) ∈ l
  | _, [], _, h => by simp [slotted] at h
  | [], (n, v) :: l, x, h => by
    simp only [slotted, List.mem_cons] at h
    rcases h with rfl | h
    · simp
    · exact List.mem_cons_of_mem _ (slotted_mem h)
  | p :: sl, (n, v) :: l, x, h => by
    simp only [slotted, List.mem_cons] at h
    rcases h with rfl | h
    · simp
    · exact List.mem_cons_of_mem _ (slotted_mem h)

/-- The tokens whose names and attributes come from there. -/
def Ok (Z : Src) : Model.HtmlTok.Tok → Prop
  | .startTag n a _ => Z.tag (Tag.ofName n) ∧ ∀ x ∈ a, Z.attr x.1 x.2
  | _ => True

theorem source_holds (tbl : List Nat → Bool) : Holds tbl (Ok Z) (I (goodD Z) (goodD Z) (H Z)) where
  init := i_init closed
  emit s t ht h := by
    refine i_emit closed h ?_
    cases t with
    | startTag n a f => exact ⟨ht.1, fun x hx => ht.2 _ (slotted_mem hx)⟩
    | _ => trivial

theorem i_good {s : S} (h : I (goodD Z) (goodD Z) (H Z) s) : goodD Z s.dom := by
  rcases h with g | ⟨-, h⟩ | ⟨-, h⟩
  · exact g.2.1
  · exact h.1
  · exact h.1

end Verif.Proof.HtmlTree.Source
