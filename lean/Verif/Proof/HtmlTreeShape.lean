import Verif.Proof.HtmlTreeTops
import Verif.Proof.HtmlTreePlain
/- The document of any text is a tree with one `html` element: what the steps keep. -/
namespace Verif.Proof.HtmlTree.Forest
open Verif.Model.HtmlTree Verif.Proof.HtmlTree.Walk

variable {d d' : Dom} {x y z p n r : Nat} {k : Kind} {pl : Place} {s : S} {st : List Entry} {f : List Fmt} {h : Option Nat}

/-- A comment. -/
def Cm (d : Dom) (x : Nat) : Prop := ∃ t, kindOf d x = some (.comment t)

/-- A document type. -/
def Dt (d : Dom) (x : Nat) : Prop := ∃ a b c, kindOf d x = some (.doctype a b c)

/-- The `html` element. -/
def Rt (d : Dom) (x : Nat) : Prop := ∃ a, kindOf d x = some (.elem .html (.k .html) a)

theorem Cm.mono (h : Cm d x) (m : Mono d d') : Cm d' x := by
  obtain ⟨t, h⟩ := h
  rcases m x _ h with h | ⟨_, _, _, _, e, h⟩ | ⟨_, _, e, _⟩
  · exact ⟨_, h⟩
  · cases e
  · cases e

theorem Dt.mono (h : Dt d x) (m : Mono d d') : Dt d' x := by
  obtain ⟨a, b, c, h⟩ := h
  rcases m x _ h with h | ⟨_, _, _, _, e, h⟩ | ⟨_, _, e, _⟩
  · exact ⟨_, _, _, h⟩
  · cases e
  · cases e

theorem Rt.mono (h : Rt d x) (m : Mono d d') : Rt d' x := by
  obtain ⟨a, h⟩ := h
  rcases m x _ h with h | ⟨_, _, _, _, e, h⟩ | ⟨_, _, e, _⟩
  · exact ⟨_, h⟩
  · cases e; exact ⟨_, h⟩
  · cases e

/-- What may be before the element: comments and at most one document type. -/
def Pro (d : Dom) (l : List Nat) : Prop :=
  ∃ a t b, l = a ++ t ++ b ∧ (∀ x ∈ a, Cm d x) ∧ (∀ x ∈ b, Cm d x) ∧ (t = [] ∨ ∃ y, t = [y] ∧ Dt d y)

theorem Pro.mono {l : List Nat} (h : Pro d l) (m : Mono d d') : Pro d' l := by
  obtain ⟨a, t, b, e, h1, h2, h3⟩ := h
  exact ⟨a, t, b, e, fun x hx => (h1 x hx).mono m, fun x hx => (h2 x hx).mono m, h3.imp id fun ⟨y, e, hy⟩ => ⟨y, e, hy.mono m⟩⟩

theorem Pro.mem {l : List Nat} (h : Pro d l) (hx : x ∈ l) : Cm d x ∨ Dt d x := by
  obtain ⟨a, t, b, rfl, h1, h2, h3⟩ := h
  simp only [List.mem_append] at hx
  rcases hx with (hx | hx) | hx
  · exact .inl (h1 x hx)
  · rcases h3 with rfl | ⟨y, rfl, hy⟩
    · cases hx
    · cases List.mem_singleton.mp hx; exact .inr hy
  · exact .inl (h2 x hx)

/-- The children of the document. -/
def Top (d : Dom) (r : Nat) : Prop := ∃ a b, kidsOf d 0 = a ++ r :: b ∧ Pro d a ∧ (∀ x ∈ b, Cm d x) ∧ Rt d r

theorem Top.mono (h : Top d r) (m : Mono d d') (hk : kidsOf d' 0 = kidsOf d 0) : Top d' r := by
  obtain ⟨a, b, e, h1, h2, h3⟩ := h
  exact ⟨a, b, by rw [hk, e], h1.mono m, fun x hx => (h2 x hx).mono m, h3.mono m⟩

theorem Top.lt (h : Top d r) : r < d.length := by
  obtain ⟨a, b, e, h1, h2, t, h3⟩ := h
  exact lt_of_kind h3

/-- What is kept. -/
structure Ok (r : Nat) (d : Dom) (es : List Entry) (f : List Fmt) (h : Option Nat) : Prop where
  wf : Wf d
  top : Top d r
  st : ∀ e ∈ es, Elem d e.node
  low : es.Pairwise fun e _ => e.node ≠ r
  fm : ∀ e, Fmt.el e ∈ f → Elem d e.node ∧ e.node ≠ r
  hd : ∀ n, h = some n → Elem d n ∧ n ≠ r

/-- The same for a state. -/
abbrev OkS (r : Nat) (s : S) : Prop := Ok r s.dom s.stack s.fmt s.head

def H : Pred := fun d st f h _ => ∃ r, Ok r d st f h

theorem Ok.grow (o : Ok r d st f h) (w : Wf d') (m : Mono d d') (hk : kidsOf d' 0 = kidsOf d 0) : Ok r d' st f h :=
  ⟨w, o.top.mono m hk, fun e he => (o.st e he).mono m, o.low, fun e he => ⟨(o.fm e he).1.mono m, (o.fm e he).2⟩,
    fun n hn => ⟨(o.hd n hn).1.mono m, (o.hd n hn).2⟩⟩

theorem Ok.inner (o : Ok r d st f h) (hx : Elem d x) (hr : x ≠ r) : parentOf d x ≠ some 0 := by
  intro e
  rw [← o.wf.kid] at e
  obtain ⟨a, b, e', h1, h2, -⟩ := o.top
  rw [e', List.mem_append, List.mem_cons] at e
  obtain ⟨ns, t, at', hx⟩ := hx
  rcases e with e | e | e
  · rcases h1.mem e with ⟨_, h⟩ | ⟨_, _, _, h⟩ <;> rw [hx] at h <;> cases h
  · exact hr e
  · obtain ⟨_, h⟩ := h2 x e
    rw [hx] at h; cases h

/-- At a place within an element. -/
theorem Ok.add (o : Ok r d st f h) (hb : ∀ p, pl.parent d = some p → Elem d p) (hk : k ≠ .document) (ht : ∀ t, k = .text t → t ≠ [])
    (e : link (d ++ [⟨k, none, []⟩]) pl d.length = .ok d') : Ok r d' st f h ∧ kindOf d' d.length = some k ∧ d.length ≠ r := by
  obtain ⟨p, hp, w, m, h1, -, h2⟩ := fresh_link o.wf (fun p hp => .inr (hb p hp)) hk ht e
  exact ⟨o.grow w m (by rw [h2, if_neg ((hb p hp).ne o.wf)]), h1, Nat.ne_of_gt o.top.lt⟩

theorem Ok.move (o : Ok r d st f h) (hb : ∀ p, pl.parent d = some p → Elem d p) (hx : x < d.length) (h0 : x ≠ 0) (hi : parentOf d x ≠ some 0)
    (e : moveNode d pl x = .ok d') : Ok r d' st f h ∧ Mono d d' ∧ d'.length = d.length ∧
      ∃ p, pl.parent d = some p ∧ ∀ y, parentOf d' y = if y = x then some p else parentOf d y := by
  obtain ⟨p, hp, w, hl, hk, hpa, hkids⟩ := move_ok o.wf hx h0 (fun p hp => .inr (hb p hp)) e
  exact ⟨o.grow w (Mono.of_eq hk) (hkids 0 (Ne.symm ((hb p hp).ne o.wf)) hi), Mono.of_eq hk, hl, p, hp, hpa⟩

theorem fromLast_mem {t : K} : ∀ {l : List Entry} {e : Entry}, e ∈ fromLast t l → e ∈ l
  | [], e, h => by cases h
  | x :: l, e, h => by
    unfold fromLast at h
    split at h
    · exact h
    · exact List.mem_cons_of_mem _ (fromLast_mem h)

theorem foster_ok {b : Entry} {lb : List Entry} (w : Wf s.dom) (hst : ∀ e ∈ s.stack, Elem s.dom e.node) (hs : ∀ e ∈ lb, e ∈ s.stack)
    (e : place.fosterTable s b lb = .ok pl) : ∀ p, pl.parent s.dom = some p → Elem s.dom p := by
  unfold place.fosterTable at e
  split at e
  · next hne =>
    cases e
    intro p hp
    rcases w.box _ p hp with rfl | h
    · exact absurd hp hne
    · exact h
  · split at e
    · cases e
    · cases e
      intro p hp
      cases hp
      exact hst _ (hs _ (by simp))

theorem place_ok {tg : Entry} (w : Wf s.dom) (hst : ∀ e ∈ s.stack, Elem s.dom e.node) (ht : Elem s.dom tg.node) (e : place s tg = .ok pl) :
    ∀ p, pl.parent s.dom = some p → Elem s.dom p := by
  unfold place at e
  split at e
  · split at e
    · next t lt b lb h1 h2 =>
      split at e
      · cases e
        intro p hp
        cases hp
        exact hst _ (fromLast_mem (t := .template) (by rw [h1]; simp))
      · exact foster_ok w hst (fun x hx => fromLast_mem (t := .table) (by rw [h2]; simp [hx])) e
    · next b lb h1 h2 => exact foster_ok w hst (fun x hx => fromLast_mem (t := .table) (by rw [h2]; simp [hx])) e
    · refine Ens.get (P := fun pl => ∀ p, pl.parent s.dom = some p → Elem s.dom p) ?_ e
      refine Ens.bind (Q := fun x => x ∈ s.stack) ?_ fun x hx => Ens.ok fun p hp => by cases hp; exact hst _ hx
      intro x hx
      unfold front at hx
      split at hx
      · cases hx
      · next he => cases hx; exact List.mem_of_getLast? he
  · cases e
    intro p hp
    cases hp
    exact ht

theorem h_insert {ns : Ns} {t : Tag} {a : List At} (o : OkS r s) :
    Ens (fun s' => OkS r s' ∧ ∃ l n, s'.stack = ⟨n, ns, t, a⟩ :: l ∧ n ≠ r) (insertForeign s ns t a) := by
  unfold insertForeign
  refine Ens.bind (Q := fun e => e ∈ s.stack) (fun e he => mem_cur he) fun e he => ?_
  refine Ens.bind (Q := fun pl => ∀ p, pl.parent s.dom = some p → Elem s.dom p) (fun pl hpl => place_ok o.wf o.st (o.st e he) hpl) fun pl hpl => ?_
  refine Ens.bind (Q := fun d' => Ok r d' s.stack s.fmt s.head ∧ kindOf d' s.dom.length = some (.elem ns t a) ∧ s.dom.length ≠ r)
    (fun d' e => o.add hpl (by simp) (by simp) e) fun d' h => Ens.ok ⟨⟨h.1.wf, h.1.top, ?_, ?_, h.1.fm, h.1.hd⟩, _, _, rfl, h.2.2⟩
  · intro x hx
    rcases List.mem_cons.mp hx with rfl | hx
    · exact ⟨_, _, _, h.2.1⟩
    · exact h.1.st x hx
  · exact List.pairwise_cons.mpr ⟨fun _ _ => h.2.2, h.1.low⟩

theorem h_reopen : ∀ {l : List Entry} {s : S}, OkS r s → Ens (OkS r) (reopen s l)
  | [], _, o => Ens.ok o
  | e :: l, s, o => by
    unfold reopen
    refine Ens.bind (h_insert o) fun s' ⟨o', l', n, hs, hn⟩ => ?_
    refine Ens.bind (Q := fun x => x ∈ s'.stack ∧ x.node ≠ r) ?_ fun x hx => ?_
    · intro x hx
      refine ⟨mem_cur hx, ?_⟩
      unfold cur at hx
      rw [hs] at hx
      cases hx
      exact hn
    refine h_reopen ⟨o'.wf, o'.top, o'.st, o'.low, ?_, o'.hd⟩
    intro y hy
    rcases List.mem_cons.mp hy with hy | hy
    · cases hy; exact ⟨o'.st x hx.1, hx.2⟩
    · exact o'.fm y hy

theorem h_drop (o : OkS r s) : OkS r { s with fmt := dropFmt n s.fmt } :=
  ⟨o.wf, o.top, o.st, o.low, fun e he => o.fm e (Pure.drop_mem he), o.hd⟩

theorem h_less (o : Ok r d st f h) {st' : List Entry} (hs : st'.Sublist st) : Ok r d st' f h :=
  ⟨o.wf, o.top, fun e he => o.st e (hs.subset he), o.low.sublist hs, o.fm, o.hd⟩

theorem h_removeNode (o : OkS r s) : Ens (fun s' => OkS r s' ∧ s'.dom = s.dom) (removeNode s n) := by
  unfold removeNode
  exact Ens.ite (fun _ => Ens.ok ⟨h_less o List.eraseP_sublist, rfl⟩) fun _ => Ens.err

theorem h_inner {b : Nat} : ∀ {l : List Entry} {i last : Nat} {bm : Bookmark} {s : S}, OkS r s → Elem s.dom last → last ≠ r →
    Ens (fun q => OkS r q.2.2 ∧ Elem q.2.2.dom q.1 ∧ q.1 ≠ r ∧ Mono s.dom q.2.2.dom) (innerLoop b l i last bm s)
  | [], _, _, _, _, o, h1, h2 => Ens.ok ⟨o, h1, h2, Mono.refl⟩
  | e :: l, i, last, bm, s, o, hl1, hl2 => by
    unfold innerLoop
    have h0 : ∀ c : Bool, OkS r (if c = true then { s with fmt := dropFmt e.node s.fmt } else s) ∧
        (if c = true then { s with fmt := dropFmt e.node s.fmt } else s).dom = s.dom := by
      intro c; cases c
      · exact ⟨o, rfl⟩
      · exact ⟨h_drop o, rfl⟩
    have h1 := h0 (decide (3 < i) && inFmt e.node s.fmt)
    dsimp only [create]
    generalize (if (decide (3 < i) && inFmt e.node s.fmt) = true then { s with fmt := dropFmt e.node s.fmt } else s) = s1 at h1
    obtain ⟨o1, hd1⟩ := h1
    rw [← hd1] at hl1 ⊢
    refine Ens.ite (fun _ => ?_) fun _ => ?_
    · have hnew : kindOf (s1.dom ++ [⟨.elem .html e.tag e.attrs, none, []⟩]) s1.dom.length = some (.elem .html e.tag e.attrs) := by
        rw [kind_add, if_pos rfl]
      have hnr : s1.dom.length ≠ r := Nat.ne_of_gt o1.top.lt
      have o2 : Ok r (s1.dom ++ [⟨.elem .html e.tag e.attrs, none, []⟩])
          (s1.stack.map fun (x : Entry) => if x.node = e.node then { x with node := s1.dom.length } else x) (replaceFmt e.node s1.dom.length s1.fmt) s1.head := by
        have o' := o1.grow (d' := s1.dom ++ [⟨.elem .html e.tag e.attrs, none, []⟩]) (wf_add o1.wf (by simp) (by simp)) Mono.add kids_add
        refine ⟨o'.wf, o'.top, ?_, ?_, ?_, o'.hd⟩
        · intro x hx
          obtain ⟨y, hy, rfl⟩ := List.mem_map.mp hx
          split
          · exact ⟨_, _, _, hnew⟩
          · exact o'.st y hy
        · rw [List.pairwise_map]
          refine o'.low.imp fun {a b} hab => ?_
          split
          · exact hnr
          · exact hab
        · intro x hx
          unfold replaceFmt at hx
          obtain ⟨y, hy, hx⟩ := List.mem_map.mp hx
          cases y with
          | marker => cases hx
          | el y =>
            dsimp only at hx
            split at hx
            · cases hx; exact ⟨⟨_, _, _, hnew⟩, hnr⟩
            · cases hx; exact o'.fm _ hy
      refine Ens.bind (Q := fun d' => Ok r d' (s1.stack.map fun (x : Entry) => if x.node = e.node then { x with node := s1.dom.length } else x)
        (replaceFmt e.node s1.dom.length s1.fmt) s1.head ∧ Mono (s1.dom ++ [⟨.elem .html e.tag e.attrs, none, []⟩]) d') ?_ fun d' h3 => ?_
      · intro d' e'
        have hl3 := hl1.mono (Mono.add (k := .elem .html e.tag e.attrs))
        have h := o2.move (pl := .last s1.dom.length) (fun p hp => by cases hp; exact ⟨_, _, _, hnew⟩) hl3.lt (hl3.ne o2.wf) (o2.inner hl3 hl2) e'
        exact ⟨h.1, h.2.1⟩
      · refine (h_inner h3.1 (Elem.mono ⟨_, _, _, hnew⟩ h3.2) hnr).mono fun q hq => ⟨hq.1, hq.2.1, hq.2.2.1, ?_⟩
        exact Mono.add.trans (h3.2.trans hq.2.2.2)
    · refine Ens.bind (h_removeNode o1) fun s2 h2 => ?_
      rw [← h2.2] at hl1 ⊢
      exact h_inner h2.1 hl1 hl2

theorem h_moveKids {fb : Nat} : ∀ {l : List Nat} {d : Dom}, Ok r d st f h → Elem d n → Elem d fb → (∀ x ∈ l, parentOf d x = some fb) → l.Nodup → n ∉ l →
    parentOf d n = none → ¬ Below d n fb →
    Ens (fun d' => Ok r d' st f h ∧ Mono d d' ∧ d'.length = d.length ∧ parentOf d' n = none ∧ ¬ Below d' n fb) (moveKids n l d)
  | [], d, o, _, _, _, _, _, h1, h2 => Ens.ok ⟨o, Mono.refl, rfl, h1, h2⟩
  | x :: l, d, o, hn, hfb, hl, nd, hnl, h1, h2 => by
    unfold moveKids
    have hx : parentOf d x = some fb := hl x (by simp)
    have hne := hfb.ne o.wf
    refine Ens.bind (Q := fun d' => Ok r d' st f h ∧ Mono d d' ∧ d'.length = d.length ∧ ∀ y, parentOf d' y = if y = x then some n else parentOf d y) ?_ ?_
    · intro d' e
      obtain ⟨a1, a2, a3, p, hp, a4⟩ := o.move (fun p hp => by cases hp; exact hn) (lt_of_parent hx) (by rintro rfl; rw [o.wf.top] at hx; cases hx)
        (by rw [hx]; simpa using hne) e
      cases hp
      exact ⟨a1, a2, a3, a4⟩
    · rintro d' ⟨a1, a2, a3, a4⟩
      simp only [List.mem_cons, not_or] at hnl
      rw [List.nodup_cons] at nd
      refine (h_moveKids a1 (hn.mono a2) (hfb.mono a2) ?_ nd.2 hnl.2 ?_ ?_).mono fun d'' h => ⟨h.1, a2.trans h.2.1, by rw [h.2.2.1, a3], h.2.2.2⟩
      · intro y hy
        rw [a4, if_neg (by rintro rfl; exact nd.1 hy)]
        exact hl y (by simp [hy])
      · rw [a4, if_neg hnl.1]; exact h1
      · intro hb
        rcases below_moved a4 hb with hb | hb
        · exact h2 hb
        · obtain ⟨rk, hr⟩ := o.wf.rank
          have := hr x fb hx
          have := hb.le hr
          omega

theorem above_low {m : Nat} {e : Entry} (hl : st.Pairwise fun e _ => e.node ≠ r) (h : e ∈ above m st) : e.node ≠ r := by
  unfold above at h
  obtain ⟨a, ha⟩ := List.dropWhile_suffix (l := st.reverse) fun e => e.node != m
  generalize st.reverse.dropWhile (fun e => e.node != m) = q at h ha
  cases q with
  | nil => cases h
  | cons y q =>
    have h' : e ∈ q := by simpa using h
    have : st = q.reverse ++ (y :: a.reverse) := by
      rw [← List.reverse_reverse st, ← ha]; simp
    rw [this, List.pairwise_append] at hl
    exact hl.2.2 e (List.mem_reverse.mpr h') y (by simp)

theorem insertAbove_low {m : Nat} {e : Entry} (hx : e.node ≠ r) : ∀ {l l' : List Entry}, insertAbove m e l = .ok l' → (l.Pairwise fun e _ => e.node ≠ r) →
    l'.Pairwise fun e _ => e.node ≠ r
  | [], _, h, _ => by simp [insertAbove] at h
  | z :: l, l', h, hp => by
    simp only [insertAbove] at h
    split at h
    · cases h
      exact List.pairwise_cons.mpr ⟨fun _ _ => hx, hp⟩
    · cases hr : insertAbove m e l with
      | error e => rw [hr] at h; cases h
      | ok q =>
        rw [hr] at h; cases h
        rw [List.pairwise_cons] at hp
        refine List.pairwise_cons.mpr ⟨fun y hy => ?_, insertAbove_low hx hr hp.2⟩
        cases l with
        | nil => simp [insertAbove] at hr
        | cons w l => exact hp.1 w (by simp)

theorem h_adopt {fe fb : Entry} (o : OkS r s) (hb : fb ∈ s.stack) (hbr : fb.node ≠ r) : Ens (OkS r) (adopt s fe fb) := by
  unfold adopt
  split
  · next e0 anc l0 hdw =>
    have hanc : Elem s.dom anc.node := o.st anc ((List.dropWhile_suffix _).subset (by rw [hdw]; simp))
    have hfb : Elem s.dom fb.node := o.st fb hb
    refine Ens.bind (h_inner o hfb hbr) fun q ⟨o1, hl1, hl2, m1⟩ => ?_
    obtain ⟨last, bm, s1⟩ := q
    dsimp only at o1 hl1 hl2 m1 ⊢
    refine Ens.bind (Q := fun pl => ∀ p, pl.parent s1.dom = some p → Elem s1.dom p) (fun pl hpl => place_ok o1.wf o1.st (hanc.mono m1) hpl) fun pl hpl => ?_
    refine Ens.bind (Q := fun d' => Ok r d' s1.stack s1.fmt s1.head ∧ Mono s1.dom d') (fun d' e =>
      let h := o1.move hpl hl1.lt (hl1.ne o1.wf) (o1.inner hl1 hl2) e; ⟨h.1, h.2.1⟩) fun d2 ⟨o2, m2⟩ => ?_
    dsimp only [create]
    have hfb2 : Elem d2 fb.node := (hfb.mono m1).mono m2
    have hnew : kindOf (d2 ++ [⟨.elem .html fe.tag fe.attrs, none, []⟩]) d2.length = some (.elem .html fe.tag fe.attrs) := by
      rw [kind_add, if_pos rfl]
    have hnr : d2.length ≠ r := Nat.ne_of_gt o2.top.lt
    have o3 := o2.grow (d' := d2 ++ [⟨.elem .html fe.tag fe.attrs, none, []⟩]) (wf_add o2.wf (by simp) (by simp)) Mono.add kids_add
    have hkids : ∀ x ∈ kidsOf (d2 ++ [⟨.elem .html fe.tag fe.attrs, none, []⟩]) fb.node, x < d2.length := fun x hx => by
      rw [kids_add, o2.wf.kid] at hx
      exact lt_of_parent hx
    have hnp : parentOf (d2 ++ [⟨.elem .html fe.tag fe.attrs, none, []⟩]) d2.length = none := by
      rw [parent_add]
      cases hq : parentOf d2 d2.length with
      | none => rfl
      | some => exact absurd (lt_of_parent hq) (by simp)
    refine Ens.bind (h_moveKids (fb := fb.node) o3 ⟨_, _, _, hnew⟩ (hfb2.mono Mono.add) (fun x hx => (o3.wf.kid _ _).mp hx) (o3.wf.once _)
      (fun hx => Nat.lt_irrefl _ (hkids _ hx)) hnp fun hc => ?_) fun d4 ⟨o4, m4, hl4, hp4, hb4⟩ => ?_
    · have : fb.node = d2.length := below_fresh (fun y hy => by rw [parent_add] at hy; exact absurd (o2.wf.lt hy) (by simp)) hc
      have := hfb2.lt
      omega
    refine Ens.bind (Q := fun d5 => Ok r d5 s1.stack s1.fmt s1.head ∧ Elem d5 d2.length) ?_ fun d5 ⟨o5, hn5⟩ => ?_
    · intro d5 e
      have hfb4 : Elem d4 fb.node := (hfb2.mono Mono.add).mono m4
      have hlen : d2.length < d4.length := by rw [hl4]; simp
      have hw := wf_link (p := fb.node) o4.wf hlen (Nat.ne_of_gt o2.wf.pos) hp4 rfl (.inr hfb4) hb4 e
      have hm : Mono d4 d5 := Mono.of_eq fun y => link_kind e
      refine ⟨o4.grow hw hm ?_, Elem.mono (Elem.mono ⟨_, _, _, hnew⟩ m4) hm⟩
      rw [link_kids e fun p hp => by cases hp; exact hfb4.lt]
      exact if_neg (by simp [Place.parent]; exact hfb4.ne o4.wf)
    refine Ens.bind (Q := fun f => ∀ e, Fmt.el e ∈ f → Elem d5 e.node ∧ e.node ≠ r) (fun f e x hx => ?_) fun f hfm => ?_
    · rcases Pure.insertFmt_mem e _ hx with hx | hx
      · cases hx; exact ⟨hn5, hnr⟩
      · exact o5.fm x (Pure.drop_mem hx)
    refine Ens.bind (h_removeNode (s := { s1 with dom := d5, fmt := f }) ⟨o5.wf, o5.top, o5.st, o5.low, hfm, o5.hd⟩) fun s' ⟨o', hd'⟩ => ?_
    refine Ens.bind (Q := fun st => (∀ e ∈ st, Elem s'.dom e.node) ∧ st.Pairwise fun e _ => e.node ≠ r) (fun st e => ⟨fun x hx => ?_, insertAbove_low hnr e o'.low⟩)
      fun st hst => Ens.ok ⟨o'.wf, o'.top, hst.1, hst.2, o'.fm, o'.hd⟩
    rcases Pure.insertAbove_mem e x hx with rfl | hx
    · rw [hd']; exact hn5
    · exact o'.st x hx
  · exact Ens.err

theorem h_outer {t : Tag} : ∀ {k : Nat} {s : S}, OkS r s → Ens (fun q => OkS r q.2) (outerLoop t k s)
  | 0, _, o => Ens.ok o
  | k + 1, s, o => by
    unfold outerLoop
    split
    · exact Ens.ok o
    · next fe hfe =>
      refine Ens.ite (fun _ => Ens.ok (h_drop o)) fun _ => ?_
      refine Ens.bind (Q := fun _ => True) Ens.triv fun _ _ => Ens.ite (fun _ => ?_) fun _ => Ens.ok o
      refine Ens.bind (Q := fun _ => True) Ens.triv fun _ _ => ?_
      split
      · exact Ens.ok (h_drop (s := s.popUntil _) (h_less o popUntil_sub))
      · next fb hfb =>
        have hm := List.mem_of_find?_eq_some hfb
        exact Ens.bind (h_adopt o (Pure.above_mem hm) (above_low o.low hm)) fun s' o' => h_outer o'

theorem h_adoption {t : Tag} (o : OkS r s) : Ens (fun q => OkS r q.2) (adoption s t) := by
  unfold adoption
  refine Ens.bind (Q := fun _ => True) Ens.triv fun _ _ => Ens.ite (fun _ => ?_) fun _ => h_outer o
  refine Ens.bind (Q := OkS r) ?_ fun _ h => Ens.ok h
  unfold pop
  split
  · exact Ens.err
  · next hs => exact Ens.ok (h_less o (by rw [hs]; exact List.sublist_cons_self _ _))

theorem h_char {c : Nat} (o : OkS r s) : Ens (OkS r) (insertChar s c) := by
  unfold insertChar
  refine Ens.bind (Q := fun e => e ∈ s.stack) (fun e he => mem_cur he) fun e he => ?_
  refine Ens.bind (Q := fun pl => ∀ p, pl.parent s.dom = some p → Elem s.dom p) (fun pl hpl => place_ok o.wf o.st (o.st e he) hpl) fun pl hpl => ?_
  split
  · exact Ens.err
  · refine Ens.ite (fun _ => Ens.ok o) fun _ => ?_
    split
    · next x t hx =>
      have hk : kindOf s.dom x = some (.text t) := by
        rw [Option.bind_eq_some_iff] at hx
        obtain ⟨y, -, hx⟩ := hx
        rw [Option.bind_eq_some_iff] at hx
        obtain ⟨k, hk, hx⟩ := hx
        cases k <;> cases hx
        exact hk
      obtain ⟨w, h1, h2⟩ := sim_modify (d := s.dom) (x := x) (f := fun _ => .text (t ++ [c]))
        (fun k h => by rw [hk] at h; cases h; exact .inr (.inr ⟨t, t ++ [c], rfl, rfl, by simp⟩)) o.wf
      exact Ens.ok (o.grow w (fun y k hk => hk ▸ h1 y) (h2 0))
    · exact Ens.bind (Q := fun d' => Ok r d' s.stack s.fmt s.head) (fun d' e => (o.add hpl (by simp) (by simp) e).1) fun _ h => Ens.ok h

theorem h_commentAt {t : List Nat} (o : OkS r s) (hb : ∀ p, pl.parent s.dom = some p → Elem s.dom p) : Ens (OkS r) (commentAt s pl t) :=
  Ens.bind (Q := fun d' => Ok r d' s.stack s.fmt s.head) (fun d' e => (o.add hb (by simp) (by simp) e).1) fun _ h => Ens.ok h

/-- A comment at the end of the document. -/
theorem commentTop {t : List Nat} (w : Wf d) (e : link (d ++ [⟨.comment t, none, []⟩]) (.last 0) d.length = .ok d') :
    Wf d' ∧ Mono d d' ∧ Cm d' d.length ∧ kidsOf d' 0 = kidsOf d 0 ++ [d.length] := by
  obtain ⟨p, hp, w', m, h1, -, h2⟩ := fresh_link w (fun p hp => .inl (by cases hp; rfl)) (by simp) (by simp) e
  cases hp
  exact ⟨w', m, ⟨t, h1⟩, by rw [h2, if_pos rfl]; rfl⟩

theorem h_merge : ∀ {a : List At} {d : Dom}, Ok r d st f h → Elem d n → Ok r (mergeAttrs d n a) st f h
  | [], d, o, _ => o
  | x :: a, d, o, hn => by
    unfold mergeAttrs
    rw [List.foldl_cons]
    have key : Ok r (if (attrsOf d n).any fun b => b.same x then d
        else d.modify n fun nd => match nd.kind with
          | .elem ns t l => { nd with kind := .elem ns t (l ++ [x]) }
          | _ => nd) st f h ∧ Elem (if (attrsOf d n).any fun b => b.same x then d
        else d.modify n fun nd => match nd.kind with
          | .elem ns t l => { nd with kind := .elem ns t (l ++ [x]) }
          | _ => nd) n := by
      split
      · exact ⟨o, hn⟩
      · have e : (fun nd : Node => match nd.kind with
            | .elem ns t l => { nd with kind := .elem ns t (l ++ [x]) }
            | _ => nd) = fun nd => { nd with kind := match nd.kind with | .elem ns t l => .elem ns t (l ++ [x]) | k => k } := by
          funext nd
          obtain ⟨k, p, l⟩ := nd
          cases k <;> rfl
        rw [e]
        obtain ⟨w, h1, h2⟩ := sim_modify (d := d) (x := n) (f := fun k => match k with | .elem ns t l => .elem ns t (l ++ [x]) | k => k)
          (fun k hk => by
            obtain ⟨ns, t, l, hn⟩ := hn
            rw [hk] at hn
            cases hn
            exact .inr (.inl ⟨_, _, _, _, rfl, rfl⟩)) o.wf
        have m : Mono d _ := fun y k hk => hk ▸ h1 y
        exact ⟨o.grow w m (h2 0), hn.mono m⟩
    exact h_merge (a := a) key.1 key.2

def A (d : Dom) : Prop := Wf d ∧ ∀ x ∈ kidsOf d 0, Cm d x
def B (d : Dom) : Prop := Wf d ∧ Pro d (kidsOf d 0)

theorem closed : Closed (fun _ _ => True) A B H where
  implied k hk := trivial
  image a h := trivial
  init := ⟨wf_init, fun x hx => by cases hx⟩
  weak d h := ⟨h.1, kidsOf d 0, [], [], by simp, h.2, by simp, .inl rfl⟩
  commentA s t h := Ens.bind (Q := A) (fun d' e => by
    obtain ⟨w, m, hc, hk⟩ := commentTop h.1 e
    refine ⟨w, fun x hx => ?_⟩
    rw [hk, List.mem_append, List.mem_singleton] at hx
    rcases hx with hx | rfl
    · exact (h.2 x hx).mono m
    · exact hc) fun _ hd => Ens.ok hd
  commentB s t h := Ens.bind (Q := B) (fun d' e => by
    obtain ⟨w, m, hc, hk⟩ := commentTop h.1 e
    obtain ⟨a, t, b, h1, h2, h3, h4⟩ := h.2.mono m
    refine ⟨w, a, t, b ++ [s.dom.length], by rw [hk, h1]; simp, h2, fun x hx => ?_, h4⟩
    rw [List.mem_append, List.mem_singleton] at hx
    rcases hx with hx | rfl
    · exact h3 x hx
    · exact hc) fun _ hd => Ens.ok hd
  doctype d x y z h := fun d' e => by
    obtain ⟨p, hp, w', m, h1, -, h2⟩ := fresh_link h.1 (fun p hp => .inl (by cases hp; rfl)) (by simp) (by simp) e
    cases hp
    exact ⟨w', kidsOf d 0, [d.length], [], by rw [h2, if_pos rfl]; simp [put], fun x hx => (h.2 x hx).mono m, by simp, .inr ⟨_, rfl, _, _, _, h1⟩⟩
  root s a h ht := by
    unfold insertRoot
    dsimp only [create]
    refine Ens.bind (Q := fun d' => Wf d' ∧ Top d' s.dom.length) (fun d' e => ?_) fun d' hd => Ens.ok ⟨s.dom.length, hd.1, hd.2, ?_, ?_, ?_, ?_⟩
    · obtain ⟨p, hp, w', m, h1, -, h2⟩ := fresh_link h.1.1 (fun p hp => .inl (by cases hp; rfl)) (by simp) (by simp) e
      cases hp
      exact ⟨w', kidsOf s.dom 0, [], by rw [h2, if_pos rfl]; rfl, h.1.2.mono m, by simp, _, h1⟩
    · intro e he
      change e ∈ _ :: s.stack at he
      rw [h.2.1] at he
      cases List.mem_singleton.mp he
      obtain ⟨_, _, _, _, _, a, h3⟩ := hd.2
      exact ⟨_, _, _, h3⟩
    · show List.Pairwise _ (_ :: s.stack)
      rw [h.2.1]; simp
    · intro e he
      change _ ∈ s.fmt at he
      rw [h.2.2.1] at he
      cases he
    · intro n hn
      change s.head = _ at hn
      rw [h.2.2.2.1] at hn
      cases hn
  sub h h1 h2 := by
    obtain ⟨r, o⟩ := h
    exact ⟨r, o.wf, o.top, fun e he => o.st e (h1.subset he), o.low.sublist h1, fun e he => o.fm e ((h2 _ he).resolve_left (by simp)), o.hd⟩
  pushHead h := by
    obtain ⟨r, o⟩ := h
    refine ⟨r, o.wf, o.top, fun e he => ?_, List.pairwise_cons.mpr ⟨fun _ _ => (o.hd _ rfl).2, o.low⟩, o.fm, o.hd⟩
    rcases List.mem_cons.mp he with rfl | he
    · exact (o.hd _ rfl).1
    · exact o.st e he
  insert s t a h ht := by
    obtain ⟨r, o⟩ := h
    exact (h_insert o).mono fun _ h => ⟨r, h.1⟩
  head s a h ht := by
    obtain ⟨r, o⟩ := h
    refine Ens.bind (h_insert o) fun s' ⟨o', l, n, hs, hn⟩ => Ens.bind (Q := fun x => x ∈ s'.stack ∧ x.node ≠ r) (fun x hx => ⟨mem_cur hx, ?_⟩)
      fun x hx => Ens.ok ⟨r, o'.wf, o'.top, o'.st, o'.low, o'.fm, fun n hn => by cases hn; exact ⟨o'.st x hx.1, hx.2⟩⟩
    unfold cur at hx
    rw [hs] at hx
    cases hx
    exact hn
  fmtEl s t a h ht := by
    obtain ⟨r, o⟩ := h
    refine Ens.bind (h_insert o) fun s' ⟨o', l, n, hs, hn⟩ => Ens.bind (Q := fun x => x ∈ s'.stack ∧ x.node ≠ r) (fun x hx => ⟨mem_cur hx, ?_⟩)
      fun x hx => Ens.ok ⟨r, o'.wf, o'.top, o'.st, o'.low, fun y hy => ?_, o'.hd⟩
    · unfold cur at hx
      rw [hs] at hx
      cases hx
      exact hn
    · rcases Pure.pushFmt_mem hy with hy | hy
      · cases hy; exact ⟨o'.st x hx.1, hx.2⟩
      · exact o'.fm y hy
  reconstruct s h := by
    obtain ⟨r, o⟩ := h
    unfold reconstruct
    exact (h_reopen (r := r) (s := { s with fmt := (toOpen s s.fmt).2 }) ⟨o.wf, o.top, o.st, o.low, fun e he => o.fm e (Pure.toOpen_mem.2 _ he), o.hd⟩).mono fun _ h => ⟨r, h⟩
  adoption s t h := by
    obtain ⟨r, o⟩ := h
    exact (h_adoption o).mono fun _ h => ⟨r, h⟩
  char s c h := by
    obtain ⟨r, o⟩ := h
    exact (h_char o).mono fun _ h => ⟨r, h⟩
  comment s t h := by
    obtain ⟨r, o⟩ := h
    refine Ens.bind (Q := fun e => e ∈ s.stack) (fun e he => mem_cur he) fun e he => ?_
    refine Ens.bind (Q := fun pl => ∀ p, pl.parent s.dom = some p → Elem s.dom p) (fun pl hpl => place_ok o.wf o.st (o.st e he) hpl) fun pl hpl => ?_
    exact (h_commentAt o hpl).mono fun _ h => ⟨r, h⟩
  commentTop s t h := by
    obtain ⟨r, o⟩ := h
    refine Ens.bind (Q := fun d' => Ok r d' s.stack s.fmt s.head) (fun d' e => ?_) fun _ h => Ens.ok ⟨r, h⟩
    obtain ⟨w, m, hc, hk⟩ := commentTop o.wf e
    obtain ⟨a, b, h1, h2, h3, h4⟩ := o.top
    refine ⟨w, ⟨a, b ++ [s.dom.length], by rw [hk, h1]; simp, h2.mono m, fun x hx => ?_, h4.mono m⟩, fun e he => (o.st e he).mono m, o.low,
      fun e he => ⟨(o.fm e he).1.mono m, (o.fm e he).2⟩, fun n hn => ⟨(o.hd n hn).1.mono m, (o.hd n hn).2⟩⟩
    rw [List.mem_append, List.mem_singleton] at hx
    rcases hx with hx | rfl
    · exact (h3 x hx).mono m
    · exact hc
  commentAt s e t h he := by
    obtain ⟨r, o⟩ := h
    exact (h_commentAt o fun p hp => by cases hp; exact o.st e he).mono fun _ h => ⟨r, h⟩
  merge h he _ := by
    obtain ⟨r, o⟩ := h
    exact ⟨r, h_merge o (o.st _ he)⟩
  svg s t a ns h _ _ _ := by
    obtain ⟨r, o⟩ := h
    exact (h_insert (s := keepSlots s _) o).mono fun _ h => ⟨r, h.1⟩
  foreign s e l t a a' h ht hs hn _ := by
    obtain ⟨r, o⟩ := h
    exact (h_insert (s := keepSlots s _) o).mono fun _ h => ⟨r, h.1⟩

end Verif.Proof.HtmlTree.Forest
