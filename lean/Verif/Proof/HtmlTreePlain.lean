import Verif.Proof.HtmlTreeKeep
import Verif.Proof.HtmlTreeSafeText
import Verif.Spec.HtmlTree
/- Texts without foreign content give HTML elements with plain attributes, for C109. -/
namespace Verif.Proof.HtmlTree.Pure
open Verif.Model.HtmlTree Verif.Proof.HtmlTree.Walk

/-- Attributes have neither namespace nor prefix. -/
def plain (l : List At) : Prop := ∀ a ∈ l, a.ns = .none ∧ a.pre = []

/-- Elements are HTML elements with such attributes. -/
def goodK : Kind → Prop
  | .elem ns _ a => ns = .html ∧ plain a
  | _ => True

def goodE (e : Entry) : Prop := e.ns = .html ∧ plain e.attrs

def goodD (d : Dom) : Prop := ∀ n ∈ d, goodK n.kind

def H : Pred := fun d st f _ sl => goodD d ∧ (∀ e ∈ st, goodE e) ∧ (∀ e, Fmt.el e ∈ f → goodE e) ∧ ∀ p ∈ sl, p = []

def T (t : Tag) (a : List At) : Prop := t.mem [.math, .svg] = false ∧ plain a

theorem good_modify {d : Dom} {i : Nat} {f : Node → Node} (h : goodD d) (hf : ∀ n, goodK n.kind → goodK (f n).kind) : goodD (d.modify i f) := by
  intro n hn
  obtain ⟨j, hj⟩ := List.mem_iff_getElem?.mp hn
  rw [List.getElem?_modify] at hj
  cases hd : d[j]? with
  | none => rw [hd] at hj; simp at hj
  | some m =>
    have hm : goodK m.kind := h m (List.mem_of_getElem? hd)
    rw [hd] at hj
    simp only [Option.map_eq_map, Option.map_some, Option.some.injEq] at hj
    subst hj
    split
    · exact hf m hm
    · exact hm

theorem good_link {d d' : Dom} {pl : Place} {x : Nat} (h : goodD d) (e : link d pl x = .ok d') : goodD d' := by
  unfold link at e
  split at e
  · cases e
    exact good_modify (good_modify h fun _ h => h) fun _ h => h
  · split at e
    · cases e
    · cases e
      exact good_modify (good_modify h fun _ h => h) fun _ h => h

theorem good_unlink {d : Dom} {x : Nat} (h : goodD d) : goodD (unlink d x) := by
  unfold unlink
  split
  · exact h
  · exact good_modify (good_modify h fun _ h => h) fun _ h => h

theorem good_move {d : Dom} {pl : Place} {x : Nat} (h : goodD d) : Ens goodD (moveNode d pl x) := by
  unfold moveNode
  split
  · exact Ens.err
  · exact Ens.ite (fun _ => Ens.err) fun _ => Ens.ite (fun _ => Ens.err) fun _ d' e => good_link (good_unlink h) e

theorem good_add {d : Dom} {n : Node} (h : goodD d) (hn : goodK n.kind) : goodD (d ++ [n]) := by
  intro m hm
  rcases List.mem_append.mp hm with hm | hm
  · exact h m hm
  · cases List.mem_singleton.mp hm; exact hn

theorem good_put {d d' : Dom} {n : Node} {pl : Place} {x : Nat} (e : link (d ++ [n]) pl x = .ok d') (h : goodD d) (hn : goodK n.kind) : goodD d' :=
  good_link (good_add h hn) e

theorem good_merge {n : Nat} : ∀ {a : List At} {d : Dom}, goodD d → plain a → goodD (mergeAttrs d n a)
  | [], d, h, _ => h
  | x :: a, d, h, ha => by
    unfold mergeAttrs
    rw [List.foldl_cons]
    refine good_merge (a := a) ?_ fun y hy => ha y (by simp [hy])
    split
    · exact h
    · refine good_modify h fun m hm => ?_
      cases hk : m.kind with
      | elem ns t l =>
        rw [hk] at hm
        refine ⟨hm.1, fun y hy => ?_⟩
        rcases List.mem_append.mp hy with hy | hy
        · exact hm.2 y hy
        · cases List.mem_singleton.mp hy
          exact ha x (by simp)
      | _ => simp only [hk]; trivial

theorem good_moveKids {el : Nat} : ∀ {l : List Nat} {d : Dom}, goodD d → Ens goodD (moveKids el l d)
  | [], _, h => Ens.ok h
  | _ :: _, _, h => Ens.bind (good_move h) fun _ h => good_moveKids h

variable {s : S}

theorem h_insert {t : Tag} {a : List At} (h : H.at s) (ha : plain a) : Ens H.at (insertForeign s .html t a) := by
  unfold insertForeign
  refine Ens.bind (Q := fun _ => True) Ens.triv fun _ _ => Ens.bind (Q := fun _ => True) Ens.triv fun _ _ => ?_
  refine Ens.bind (Q := goodD) (fun d e => good_put e h.1 ⟨rfl, ha⟩) fun d hd => Ens.ok ⟨hd, ?_, h.2.2⟩
  intro e he
  rcases List.mem_cons.mp he with rfl | he
  · exact ⟨rfl, ha⟩
  · exact h.2.1 e he

theorem h_commentAt {pl : Place} {t : List Nat} (h : H.at s) : Ens H.at (commentAt s pl t) :=
  Ens.bind (Q := goodD) (fun _ e => good_put e h.1 trivial) fun _ hd => Ens.ok ⟨hd, h.2⟩

theorem behind_mem : ∀ {l : List Fmt} {e : Entry}, e ∈ behindMarker l → Fmt.el e ∈ l
  | .el x :: l, e, h => by
    rcases List.mem_cons.mp h with rfl | h
    · simp
    · exact List.mem_cons_of_mem _ (behind_mem h)
  | .marker :: l, e, h => by cases h
  | [], e, h => by cases h

theorem toOpen_mem : ∀ {l : List Fmt}, (∀ e ∈ (toOpen s l).1, Fmt.el e ∈ l) ∧ ∀ x ∈ (toOpen s l).2, x ∈ l
  | .el x :: l => by
    have ih := toOpen_mem (l := l)
    unfold toOpen
    split
    · exact ⟨fun e h => (by cases h), fun _ h => h⟩
    · refine ⟨fun e h => ?_, fun y h => List.mem_cons_of_mem _ (ih.2 y h)⟩
      rcases List.mem_cons.mp h with rfl | h
      · simp
      · exact List.mem_cons_of_mem _ (ih.1 e h)
  | .marker :: l => ⟨fun e h => (by cases h), fun _ h => h⟩
  | [] => ⟨fun e h => (by cases h), fun _ h => h⟩

theorem h_reopen : ∀ {l : List Entry} {s : S}, H.at s → (∀ e ∈ l, goodE e) → Ens H.at (reopen s l)
  | [], _, h, _ => Ens.ok h
  | e :: l, s, h, hl => by
    unfold reopen
    refine Ens.bind (h_insert h (hl e (by simp)).2) fun s' h' => ?_
    refine Ens.bind (Q := fun x => x ∈ s'.stack) (fun x hx => mem_cur hx) fun x hx => ?_
    refine h_reopen ⟨h'.1, h'.2.1, ?_, h'.2.2.2⟩ fun y hy => hl y (by simp [hy])
    intro y hy
    rcases List.mem_cons.mp hy with hy | hy
    · cases hy; exact h'.2.1 x hx
    · exact h'.2.2.1 y hy

theorem drop_mem {n : Nat} {l : List Fmt} {x : Fmt} (h : x ∈ dropFmt n l) : x ∈ l := List.mem_of_mem_eraseP h

theorem h_drop {n : Nat} (h : H.at s) : H.at { s with fmt := dropFmt n s.fmt } := ⟨h.1, h.2.1, fun e he => h.2.2.1 e (drop_mem he), h.2.2.2⟩

theorem h_removeNode {n : Nat} (h : H.at s) : Ens H.at (removeNode s n) := by
  unfold removeNode
  exact Ens.ite (fun _ => Ens.ok ⟨h.1, fun e he => h.2.1 e (List.mem_of_mem_eraseP he), h.2.2⟩) fun _ => Ens.err

theorem h_inner {b : Nat} : ∀ {l : List Entry} {i last : Nat} {bm : Bookmark} {s : S}, H.at s → (∀ e ∈ l, goodE e) →
    Ens (fun r => H.at r.2.2) (innerLoop b l i last bm s)
  | [], _, _, _, _, h, _ => Ens.ok h
  | e :: l, i, last, bm, s, h, hl => by
    unfold innerLoop
    have h0 : ∀ c : Bool, H.at (if c = true then { s with fmt := dropFmt e.node s.fmt } else s) := by
      intro c; cases c
      · exact h
      · exact h_drop h
    have h1 := h0 (decide (3 < i) && inFmt e.node s.fmt)
    dsimp only [create]
    have tl : ∀ x ∈ l, goodE x := fun x hx => hl x (by simp [hx])
    refine Ens.ite (fun _ => ?_) fun _ => Ens.bind (h_removeNode h1) fun _ h => h_inner h tl
    refine Ens.bind (Q := goodD) (good_move (good_add h1.1 ⟨rfl, (hl e (by simp)).2⟩)) fun d hd => h_inner ⟨hd, ?_, ?_, h1.2.2.2⟩ tl
    · intro x hx
      obtain ⟨y, hy, rfl⟩ := List.mem_map.mp hx
      have := h1.2.1 y hy
      split
      · exact this
      · exact this
    · intro x hx
      unfold replaceFmt at hx
      obtain ⟨y, hy, hx⟩ := List.mem_map.mp hx
      cases y with
      | marker => cases hx
      | el y =>
        have := h1.2.2.1 y hy
        dsimp only at hx
        split at hx
        · cases hx; exact this
        · cases hx; exact this

theorem insertFmt_mem {x : Entry} : ∀ {b : Bookmark} {l l' : List Fmt}, insertFmt x b l = .ok l' → ∀ y ∈ l', y = .el x ∨ y ∈ l := by
  intro b l
  induction l with
  | nil =>
    intro l' h
    cases b <;> simp only [insertFmt] at h <;> cases h
    simp
  | cons z l ih =>
    intro l' h
    cases b with
    | fin => simp only [insertFmt] at h; cases h; intro y hy; simpa using hy
    | stale => simp only [insertFmt] at h; cases h
    | entry n =>
      cases z with
      | marker =>
        simp only [insertFmt] at h
        cases hr : insertFmt x (.entry n) l with
        | error e => rw [hr] at h; cases h
        | ok r =>
          rw [hr] at h; cases h
          intro y hy
          rcases List.mem_cons.mp hy with rfl | hy
          · simp
          · rcases ih hr y hy with h | h <;> simp [h]
      | el e =>
        simp only [insertFmt] at h
        split at h
        · cases h
          intro y hy
          simp only [List.mem_cons] at hy ⊢
          tauto
        · cases hr : insertFmt x (.entry n) l with
          | error e => rw [hr] at h; cases h
          | ok r =>
            rw [hr] at h; cases h
            intro y hy
            rcases List.mem_cons.mp hy with rfl | hy
            · simp
            · rcases ih hr y hy with h | h <;> simp [h]
    | mark n =>
      cases z with
      | marker =>
        simp only [insertFmt] at h
        split at h
        · cases h
          intro y hy
          simp only [List.mem_cons] at hy ⊢
          tauto
        · cases hr : insertFmt x (.mark n) l with
          | error e => rw [hr] at h; cases h
          | ok r =>
            rw [hr] at h; cases h
            intro y hy
            rcases List.mem_cons.mp hy with rfl | hy
            · simp
            · rcases ih hr y hy with h | h <;> simp [h]
      | el e =>
        simp only [insertFmt] at h
        cases hr : insertFmt x (.mark n) l with
        | error e => rw [hr] at h; cases h
        | ok r =>
          rw [hr] at h; cases h
          intro y hy
          rcases List.mem_cons.mp hy with rfl | hy
          · simp
          · rcases ih hr y hy with h | h <;> simp [h]

theorem insertAbove_mem {n : Nat} {x : Entry} : ∀ {l l' : List Entry}, insertAbove n x l = .ok l' → ∀ y ∈ l', y = x ∨ y ∈ l
  | [], _, h => by simp [insertAbove] at h
  | z :: l, l', h => by
    simp only [insertAbove] at h
    split at h
    · cases h
      intro y hy
      simp only [List.mem_cons] at hy ⊢
      tauto
    · cases hr : insertAbove n x l with
      | error e => rw [hr] at h; cases h
      | ok r =>
        rw [hr] at h; cases h
        intro y hy
        rcases List.mem_cons.mp hy with rfl | hy
        · simp
        · rcases insertAbove_mem hr y hy with h | h <;> simp [h]

theorem above_mem {n : Nat} {l : List Entry} {e : Entry} (h : e ∈ above n l) : e ∈ l := by
  unfold above at h
  have := List.mem_of_mem_drop h
  have := (List.dropWhile_suffix _).subset this
  simpa using this

theorem h_adopt {fe fb : Entry} (h : H.at s) (hf : goodE fe) : Ens H.at (adopt s fe fb) := by
  unfold adopt
  split
  · refine Ens.bind (h_inner h fun e he => h.2.1 e ?_) fun r h => ?_
    · exact above_mem ((List.takeWhile_prefix _).subset (List.mem_reverse.mp he))
    refine Ens.bind (Q := fun _ => True) Ens.triv fun _ _ => ?_
    refine Ens.bind (Q := goodD) (good_move h.1) fun d hd => ?_
    dsimp only [create]
    refine Ens.bind (Q := goodD) (good_moveKids (good_add hd ⟨rfl, hf.2⟩)) fun d hd => ?_
    refine Ens.bind (Q := goodD) (fun d e => good_link hd e) fun d hd => ?_
    refine Ens.bind (Q := fun f => ∀ e, Fmt.el e ∈ f → goodE e) (fun f e x hx => ?_) fun f hfm => ?_
    · rcases insertFmt_mem e _ hx with hx | hx
      · cases hx; exact ⟨rfl, hf.2⟩
      · exact h.2.2.1 x (drop_mem hx)
    refine Ens.bind (h_removeNode (s := { r.2.2 with dom := d, fmt := f }) ⟨hd, h.2.1, hfm, h.2.2.2⟩) fun s' h' => ?_
    refine Ens.bind (Q := fun st => ∀ e ∈ st, goodE e) (fun st e x hx => ?_) fun st hst => Ens.ok ⟨h'.1, hst, h'.2.2⟩
    rcases insertAbove_mem e x hx with rfl | hx
    · exact ⟨rfl, hf.2⟩
    · exact h'.2.1 x hx
  · exact Ens.err

theorem findFmt_mem {t : Tag} : ∀ {l : List Fmt} {e : Entry}, findFmt t l = some e → Fmt.el e ∈ l
  | .el x :: l, e, h => by
    unfold findFmt at h
    split at h
    · cases h; simp
    · exact List.mem_cons_of_mem _ (findFmt_mem h)
  | .marker :: l, e, h => by simp [findFmt] at h
  | [], e, h => by simp [findFmt] at h

theorem h_outer {t : Tag} : ∀ {k : Nat} {s : S}, H.at s → Ens (fun r => H.at r.2) (outerLoop t k s)
  | 0, _, h => Ens.ok h
  | k + 1, s, h => by
    unfold outerLoop
    split
    · exact Ens.ok h
    · next fe hfe =>
      refine Ens.ite (fun _ => Ens.ok (h_drop h)) fun _ => ?_
      refine Ens.bind (Q := fun _ => True) Ens.triv fun _ _ => Ens.ite (fun _ => ?_) fun _ => Ens.ok h
      refine Ens.bind (Q := fun _ => True) Ens.triv fun _ _ => ?_
      split
      · exact Ens.ok ⟨h.1, fun e he => h.2.1 e (popUntil_mem he), fun e he => h.2.2.1 e (drop_mem he), h.2.2.2⟩
      · refine Ens.bind (h_adopt h ?_) fun s' h' => h_outer h'
        cases hf : s.stack.find? fun e => e.node == fe.node with
        | none => exact h.2.2.1 fe (findFmt_mem hfe)
        | some e => exact h.2.1 e (List.mem_of_find?_eq_some hf)

theorem h_adoption {t : Tag} (h : H.at s) : Ens (fun r => H.at r.2) (adoption s t) := by
  unfold adoption
  refine Ens.bind (Q := fun _ => True) Ens.triv fun _ _ => Ens.ite (fun _ => ?_) fun _ => h_outer h
  refine Ens.bind (Q := H.at) ?_ fun _ h => Ens.ok h
  unfold pop
  split
  · exact Ens.err
  · next hs => exact Ens.ok ⟨h.1, fun e he => h.2.1 e (by rw [hs]; exact List.mem_cons_of_mem _ he), h.2.2⟩

theorem h_char {c : Nat} (h : H.at s) : Ens H.at (insertChar s c) := by
  unfold insertChar
  refine Ens.bind (Q := fun _ => True) Ens.triv fun _ _ => Ens.bind (Q := fun _ => True) Ens.triv fun _ _ => ?_
  split
  · exact Ens.err
  · refine Ens.ite (fun _ => Ens.ok h) fun _ => ?_
    split
    · exact Ens.ok ⟨good_modify h.1 fun _ _ => trivial, h.2⟩
    · exact Ens.bind (Q := goodD) (fun _ e => good_put e h.1 trivial) fun _ hd => Ens.ok ⟨hd, h.2⟩

theorem pushFmt_mem {e : Entry} {x : Fmt} (h : x ∈ (pushFmt s e).fmt) : x = .el e ∨ x ∈ s.fmt := by
  unfold pushFmt at h
  dsimp only at h
  rcases List.mem_cons.mp h with h | h
  · exact .inl h
  · refine .inr ?_
    split at h
    · split at h
      · exact drop_mem h
      · exact h
    · exact h

theorem closed : Closed T goodD goodD H where
  implied k hk := by
    refine ⟨?_, fun a ha => by cases ha⟩
    revert k
    decide
  image a h := ⟨by decide, h.2⟩
  init n hn := by cases List.mem_singleton.mp hn; trivial
  weak d h := h
  commentA s t h := Ens.bind (Q := goodD) (fun _ e => good_put e h trivial) fun _ hd => Ens.ok hd
  commentB s t h := Ens.bind (Q := goodD) (fun _ e => good_put e h trivial) fun _ hd => Ens.ok hd
  doctype d x y z h := fun _ e => good_put e h trivial
  root s a h ht := by
    unfold insertRoot
    dsimp only [create]
    refine Ens.bind (Q := goodD) (fun _ e => good_put e h.1 ⟨rfl, ht.2⟩) fun d hd => Ens.ok ⟨hd, ?_, ?_, ?_⟩
    · intro e he
      change e ∈ _ :: s.stack at he
      rw [h.2.1] at he
      cases List.mem_singleton.mp he
      exact ⟨rfl, ht.2⟩
    · intro e he
      change _ ∈ s.fmt at he
      rw [h.2.2.1] at he
      cases he
    · intro p hp
      change _ ∈ s.slots at hp
      rw [h.2.2.2.2.1] at hp
      cases hp
  sub h h1 h2 := ⟨h.1, fun e he => h.2.1 e (h1.subset he), fun e he => h.2.2.1 e ((h2 _ he).resolve_left (by simp)), h.2.2.2⟩
  pushHead h := ⟨h.1, fun e he => by
    rcases List.mem_cons.mp he with rfl | he
    · exact ⟨rfl, fun a ha => by cases ha⟩
    · exact h.2.1 e he, h.2.2⟩
  insert s t a h ht := h_insert h ht.2
  head s a h ht := Ens.bind (h_insert h ht.2) fun _ h => Ens.bind (Q := fun _ => True) Ens.triv fun _ _ => Ens.ok h
  fmtEl s t a h ht := by
    refine Ens.bind (h_insert h ht.2) fun s' h => Ens.bind (Q := fun x => x ∈ s'.stack) (fun x hx => mem_cur hx) fun x hx => Ens.ok ⟨h.1, h.2.1, ?_, h.2.2.2⟩
    intro y hy
    rcases pushFmt_mem hy with hy | hy
    · cases hy; exact h.2.1 x hx
    · exact h.2.2.1 y hy
  reconstruct s h := by
    unfold reconstruct
    refine h_reopen ⟨h.1, h.2.1, fun e he => h.2.2.1 e (toOpen_mem.2 _ he), h.2.2.2⟩ fun e he => h.2.2.1 e (toOpen_mem.1 e (List.mem_reverse.mp he))
  adoption s t h := h_adoption h
  char s c h := h_char h
  comment s t h := Ens.bind (Q := fun _ => True) Ens.triv fun _ _ => Ens.bind (Q := fun _ => True) Ens.triv fun _ _ => h_commentAt h
  commentTop s t h := h_commentAt h
  commentAt s e t h _ := h_commentAt h
  merge h _ ht := ⟨good_merge h.1 ht.2, h.2⟩
  svg s t a ns _ ht hm _ := by rw [ht.1] at hm; cases hm
  foreign s e l t a a' h ht hs hn _ := absurd (h.2.1 e (by rw [hs]; simp)).1 hn

theorem plain_slotted : ∀ {sl : List (List Nat)} {l : List (List Nat × List Nat)}, (∀ p ∈ sl, p = []) → plain (slotted sl l)
  | _, [], _ => by simp [slotted, plain]
  | [], (n, v) :: l, h => by
    have := plain_slotted (l := l) h
    intro a ha
    simp only [slotted, List.mem_cons] at ha
    rcases ha with rfl | ha
    · exact ⟨rfl, rfl⟩
    · exact this a ha
  | p :: sl, (n, v) :: l, h => by
    have := plain_slotted (sl := sl) (l := l) fun q hq => h q (by simp [hq])
    intro a ha
    simp only [slotted, List.mem_cons] at ha
    rcases ha with rfl | ha
    · exact ⟨rfl, h p (by simp)⟩
    · exact this a ha

/-- The tokens that do not lead into foreign content. -/
def Home : Model.HtmlTok.Tok → Prop
  | .startTag n _ _ => (Tag.ofName n).mem [.math, .svg] = false
  | _ => True

theorem home_holds (tbl : List Nat → Bool) : Holds tbl Home (I goodD goodD H) where
  init := i_init closed
  emit s t ht h := by
    have hs : ∀ p ∈ s.slots, p = [] := by
      rcases h with g | ⟨-, h⟩ | ⟨-, h⟩
      · exact g.2.2.2.2
      · rw [h.2.2.2.2.1]; simp
      · rw [h.2.2.2.2.1]; simp
    refine i_emit closed h ?_
    cases t with
    | startTag n a f => exact ⟨ht, plain_slotted hs⟩
    | _ => trivial

theorem i_good {s : S} (h : I goodD goodD H s) : goodD s.dom := by
  rcases h with g | ⟨-, h⟩ | ⟨-, h⟩
  · exact g.2.1
  · exact h.1
  · exact h.1

open Verif.Spec.HtmlTree

/-- What such nodes are. -/
def Plain : Spec.HtmlSerial.Data → Prop
  | .element ns _ _ attrs => ns = Spec.HtmlSerial.htmlNs ∧ ∀ a ∈ attrs, a.ns = [] ∧ a.pre = []
  | _ => True

theorem plain_nodes {d : Dom} (h : goodD d) : ∀ x ∈ nodes (document d), Plain x := by
  intro x hx
  rcases mem_nodes_view d _ _ x hx with rfl | ⟨n, hn, rfl⟩
  · trivial
  · have := h n hn
    cases hk : n.kind with
    | elem ns t a =>
      rw [hk] at this
      obtain ⟨rfl, ha⟩ := this
      refine ⟨rfl, fun y hy => ?_⟩
      obtain ⟨z, hz, rfl⟩ := List.mem_map.mp hy
      have := ha z hz
      exact ⟨by simp [attr, this.1, attrNs], this.2⟩
    | _ => trivial

end Verif.Proof.HtmlTree.Pure
