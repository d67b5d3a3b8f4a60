import Verif.Proof.HtmlSerial
/- The loop of the HTML serializer writes a tree recursively. -/
namespace Verif.Proof.HtmlSerial
open Verif.Model.Unicode Verif.Model.HtmlAtom Verif.Spec Verif.Spec.HtmlAtom Verif.Props.Unicode Verif.Proof.Unicode
open Verif.Proof.HtmlAtom Verif.Props.HtmlAtom Verif.Model.HtmlSerial
open Verif.Spec.HtmlSerial (Shown Str ShowsAttr ShowsAttrs ShowsData Shows ShowsAll HtmlElement voidNames rawNames htmlNs mathNs
  svgNs xlinkNs xmlNs xmlnsNs Dom KnownNs Plain Plains)
open Verif (Spec.HtmlSerial.Data)

/-- The start tag as the code writes it. -/
def startOut : Spec.HtmlSerial.Data → List Nat
  | .element ns pre name attrs => codes "<" ++ (Spec.HtmlSerial.tagName ns pre name ++ (attrsOut' attrs ++ codes ">"))
  | _ => []

/-- The end tag. -/
def endOut : Spec.HtmlSerial.Data → List Nat
  | .element ns pre name attrs =>
    if HtmlElement voidNames (.element ns pre name attrs) then [] else codes "</" ++ (Spec.HtmlSerial.tagName ns pre name ++ codes ">")
  | _ => []

/-- What is written for a node itself. -/
def here (parent : Spec.HtmlSerial.Data) : Spec.HtmlSerial.Data → List Nat
  | .element ns pre name attrs => startOut (.element ns pre name attrs)
  | .text s => if HtmlElement rawNames parent then s else Spec.HtmlSerial.escape false s
  | .comment s => codes "<!--" ++ (s ++ codes "-->")
  | .pi target data => codes "<?" ++ (target ++ (codes " " ++ (data ++ codes ">")))
  | .doctype name => codes "<!DOCTYPE " ++ (name ++ codes ">")
  | .other => []

def isElem : Spec.HtmlSerial.Data → Bool
  | .element .. => true
  | _ => false

mutual
/-- What the code writes for a node below `parent`. -/
def out (parent : Spec.HtmlSerial.Data) : Dom → List Nat
  | .mk d ks => here parent d ++ if isElem d then outs d ks ++ endOut d else []

def outs (parent : Spec.HtmlSerial.Data) : List Dom → List Nat
  | [] => []
  | n :: r => out parent n ++ outs parent r
end

mutual
/-- Rounds of the loop. -/
def steps : Dom → Nat
  | .mk d ks => 1 + if isElem d then stepsAll ks else 0

def stepsAll : List Dom → Nat
  | [] => 0
  | n :: r => steps n + stepsAll r
end

mutual
theorem steps_le (ct : CharT) : ∀ (n : Node) (m : Dom), Shows ct n m → steps m ≤ n.size
  | .mk d ks, .mk d' ks', h => by
    unfold Shows at h
    have := stepsAll_le ct ks ks' h.2
    unfold steps Node.size
    split <;> omega

theorem stepsAll_le (ct : CharT) : ∀ (l : List Node) (m : List Dom), ShowsAll ct l m → stepsAll m ≤ sizes l
  | [], [], _ => by simp [stepsAll, sizes]
  | n :: l, m :: k, h => by
    unfold ShowsAll at h
    have a := steps_le ct n m h.1
    have b := stepsAll_le ct l k h.2
    unfold stepsAll sizes
    omega
  | [], _ :: _, h => by unfold ShowsAll at h; exact h.elim
  | _ :: _, [], h => by unfold ShowsAll at h; exact h.elim
end

/-! ### Pieces -/

/-- Text is allowed below the parent: assertions are off, or the parent is an element. -/
def TextOk (nd : Bool) (parent : Spec.HtmlSerial.Data) : Prop := nd = true ∨ isElem parent = true

theorem close_eq (ct dst : CharT) (d : Data) (d' : Spec.HtmlSerial.Data) (h : ShowsData ct d d') (he : isElem d' = true) :
    closeOut ct dst d = some (formOf dst (endOut d')) := by
  cases d' with
  | element ns pre name attrs =>
    cases d with
    | element e =>
      have hv := void_iff ct (.element e) (.element ns pre name attrs) h
      obtain ⟨h1, h2, h3, h4⟩ := h
      unfold closeOut endOut
      dsimp only
      by_cases c : HtmlElement voidNames (.element ns pre name attrs)
      · rw [if_pos (hv.mpr c), if_pos c]; cases dst <;> rfl
      · rw [if_neg (fun x => c (hv.mp x)), if_neg c, tagName_eq ct dst e ns pre name h1 h2 h3, lit_eq dst _ (by decide),
          lit_eq dst _ (by decide), cat_form, cat_form]
        rfl
    | _ => exact h.elim
  | _ => simp [isElem] at he

theorem raw_other (l : List (List Nat)) (p : Spec.HtmlSerial.Data) (s t : List Nat) (h : isElem p = false) :
    (if HtmlElement l p then s else t) = t := by
  apply if_neg
  cases p <;> first
    | exact fun x => x
    | simp [isElem] at h

theorem node_eq (ct dst : CharT) (nd : Bool) (p d : Data) (p' d' : Spec.HtmlSerial.Data) (hp : ShowsData ct p p')
    (h : ShowsData ct d d') (ht : d'.isText → TextOk nd p') : nodeOut ct dst nd p d = some (formOf dst (here p' d')) := by
  cases d' with
  | element ns pre name attrs =>
    cases d with
    | element e =>
      obtain ⟨h1, h2, h3, h4⟩ := h
      unfold nodeOut here startOut
      dsimp only
      rw [tagName_eq ct dst e ns pre name h1 h2 h3, attrsOut_eq ct dst _ _ h4, lit_eq dst _ (by decide), lit_eq dst _ (by decide),
        cat_form, cat_form, cat_form]
      rfl
    | _ => exact h.elim
  | text s =>
    cases d with
    | text u =>
      have h : Str ct u s := h
      unfold nodeOut here
      dsimp only
      cases p' with
      | element ns pre name attrs =>
        cases p with
        | element e =>
          obtain ⟨h1, h2, h3, h4⟩ := hp
          have e1 := tags_iff ct e.name name h3 rawTags rawNames (by decide +kernel) (by decide)
          have e4 := name_is ct .ns e.ns ns htmlNs h1 1 (by decide) ns_html
          dsimp only
          by_cases c : HtmlElement rawNames (.element ns pre name attrs)
          · rw [if_pos (⟨e4.mpr c.1, e1.mpr c.2⟩ : toName e.ns = 1 ∧ rawTags.contains (toName e.name) = true), if_pos c]
            exact cast_str ct dst u s h
          · rw [if_neg (fun x : toName e.ns = 1 ∧ rawTags.contains (toName e.name) = true => c ⟨e4.mp x.1, e1.mp x.2⟩), if_neg c]
            exact escape_eq ct dst false u s h
        | _ => exact hp.elim
      | _ =>
        have hn : nd = true := by
          rcases ht trivial with h | h
          · exact h
          · simp [isElem] at h
        rw [raw_other _ _ s _ rfl]
        cases p <;> first
          | exact hp.elim
          | (dsimp only; rw [if_pos hn]; exact escape_eq ct dst false u s h)
    | _ => exact h.elim
  | pi s t =>
    cases d with
    | pi u v =>
      obtain ⟨h1, h2⟩ := h
      unfold nodeOut here
      dsimp only
      rw [cast_str ct dst u s h1, cast_str ct dst v t h2, lit_eq dst _ (by decide), lit_eq dst _ (by decide), lit_eq dst _ (by decide),
        cat_form, cat_form, cat_form, cat_form]
      rfl
    | _ => exact h.elim
  | comment s =>
    cases d with
    | comment u =>
      unfold nodeOut here
      dsimp only
      rw [cast_str ct dst u s h, lit_eq dst _ (by decide), lit_eq dst _ (by decide), cat_form, cat_form]
      rfl
    | _ => exact h.elim
  | doctype s =>
    cases d with
    | doctype u =>
      unfold nodeOut here
      dsimp only
      rw [cast_str ct dst u s h, lit_eq dst _ (by decide), lit_eq dst _ (by decide), cat_form, cat_form]
      rfl
    | _ => exact h.elim
  | other => cases d <;> first
      | exact h.elim
      | (cases dst <;> rfl)

/-! ### Pointers -/

theorem walk_append (n : Node) (w : List Nat) (i : Nat) :
    n.walk (w ++ [i]) = match n.walk w with | none => none | some m => m.kids[i]? := by
  induction w generalizing n with
  | nil =>
    show n.walk [i] = n.kids[i]?
    rw [Node.walk]
    cases n.kids[i]? with
    | none => rfl
    | some k => show k.walk [] = some k; rw [Node.walk]
  | cons j w ih =>
    rw [List.cons_append, Node.walk, Node.walk]
    cases n.kids[j]? with
    | none => rfl
    | some k => exact ih k

theorem fetch_cons (root : Node) (p : Ptr) (i : Nat) (m : Node) (h : fetch root p = some m) : fetch root (i :: p) = m.kids[i]? := by
  unfold fetch at *
  rw [List.reverse_cons, walk_append, h]

/-- Closing tags down to `p` are `c`; below `p` the stack is `x'`. -/
inductive Pops (ct dst : CharT) (root : Node) (p : Ptr) : List Ptr → List Nat → List Ptr → Prop
  | here (x : List Ptr) : Pops ct dst root p (p :: x) [] x
  | step (q : Ptr) (n : Node) (x : List Ptr) (c d : List Nat) (x' : List Ptr) : p.length < q.length → fetch root q = some n →
      closeOut ct dst n.data = some c → Pops ct dst root p x d x' → Pops ct dst root p (q :: x) (c ++ d) x'

theorem pops_closeTo (ct dst : CharT) (root : Node) (p : Ptr) (x : List Ptr) (c : List Nat) (x' : List Ptr)
    (h : Pops ct dst root p x c x') : closeTo ct dst root p x = some (c, p :: x') := by
  induction h with
  | here x => rw [closeTo, if_pos rfl]
  | step q n x c d x' h1 h2 h3 h4 ih =>
    rw [closeTo, if_neg (by rintro rfl; omega), h2]
    dsimp only
    rw [h3, ih]

theorem pops_rest (ct dst : CharT) (root : Node) (x : List Ptr) (c : List Nat) (p : Ptr) (h : Pops ct dst root p x c []) :
    closeRest ct dst root x = some c := by
  generalize hx : ([] : List Ptr) = x' at h
  induction h with
  | here x => subst hx; rfl
  | step q n x c d x' h1 h2 h3 h4 ih =>
    cases x with
    | nil => cases h4
    | cons b x =>
      rw [closeRest]
      · rw [h2]; dsimp only; rw [h3, ih hx]; rfl
      · simp

theorem pops_then (ct dst : CharT) (root : Node) (q p : Ptr) (n : Node) (x : List Ptr) (c d : List Nat) (x' : List Ptr)
    (h : Pops ct dst root q x c (p :: x')) (hq : p.length < q.length) (hn : fetch root q = some n)
    (hd : closeOut ct dst n.data = some d) : Pops ct dst root p x (c ++ d) x' := by
  generalize hx : p :: x' = z at h
  induction h with
  | here x =>
    subst hx
    have := Pops.step (ct := ct) (dst := dst) q n (p :: x') d [] x' hq hn hd (.here x')
    simpa using this
  | step r m y c1 d1 y' h1 h2 h3 h4 ih =>
    rw [List.append_assoc]
    exact .step r m y c1 _ x' (by omega) h2 h3 (ih hx)

/-! ### The loop -/

theorem cat_assoc (a b : List Nat) (r : Option (List Nat)) : cat (some a) (cat (some b) r) = cat (some (a ++ b)) r := by
  cases r with
  | none => rfl
  | some r => simp [cat]

theorem cat_nil (r : Option (List Nat)) : cat (some []) r = r := by cases r <;> rfl

theorem kidPtrs_eq (p : Ptr) (n : Node) : kidPtrs p n = (List.range' 0 n.kids.length).map (· :: p) := by
  unfold kidPtrs
  rw [List.range_eq_range']

mutual
theorem loop_node (ct dst : CharT) (nd : Bool) (root : Node) : ∀ (D : Dom) (n m : Node) (M : Spec.HtmlSerial.Data) (p : Ptr) (i : Nat)
    (x : List Ptr) (c : List Nat) (x' : List Ptr), fetch root p = some m → fetch root (i :: p) = some n → ShowsData ct m.data M →
    Shows ct n D → (D.data.isText → TextOk nd M) → Pops ct dst root p x c x' →
    ∃ x2 w c2, (∀ fuel y, loop ct dst nd root (fuel + steps D) x ((i :: p) :: y) = cat (some w) (loop ct dst nd root fuel x2 y)) ∧
      Pops ct dst root p x2 c2 x' ∧ w ++ c2 = c ++ formOf dst (out M D)
  | .mk d ks, .mk e l, m, M, p, i, x, c, x', hm, hn, hM, hs, ht, hp => by
    unfold Shows at hs
    have hc := pops_closeTo ct dst root p x c x' hp
    have ho := node_eq ct dst nd m.data e M d hM hs.1 ht
    by_cases hE : isElem d = true
    · have hee : ∃ e', e = .element e' := by
        cases d with
        | element ns pre name attrs =>
          cases e with
          | element e' => exact ⟨e', rfl⟩
          | _ => exact hs.1.elim
        | _ => simp [isElem] at hE
      obtain ⟨e', rfl⟩ := hee
      have hcl := close_eq ct dst (.element e') d hs.1 hE
      obtain ⟨x2, w, c2, h1, h2, h3⟩ := loop_forest ct dst nd root ks l (.mk (.element e') l) d (i :: p) 0 ((i :: p) :: p :: x') []
        (p :: x') hn (by intro j; simp [Node.kids]) hs.1 hs.2 (fun _ _ _ => Or.inr hE) (.here _)
      refine ⟨x2, c ++ (formOf dst (here M d) ++ w), c2 ++ formOf dst (endOut d), ?_, ?_, ?_⟩
      · intro fuel y
        have e1 : fuel + steps (.mk d ks) = (fuel + stepsAll ks) + 1 := by
          rw [steps, if_pos hE]; omega
        rw [e1, loop, hn, hm, hc]
        dsimp only
        rw [show (Node.mk (.element e') l).data = .element e' from rfl]
        dsimp only
        rw [show nodeOut ct dst nd m.data (.element e') = some (formOf dst (here M d)) from ho, kidPtrs_eq]
        have := h1 fuel y
        rw [show (Node.mk (.element e') l).kids.length = l.length from rfl, this, cat_assoc, cat_assoc, List.append_assoc]
      · exact pops_then ct dst root (i :: p) p _ x2 c2 _ x' h2 (by simp) hn hcl
      · rw [out, if_pos hE, form_append, form_append, List.nil_append] at *
        rw [← h3]
        simp only [List.append_assoc]
    · refine ⟨p :: x', c ++ formOf dst (here M d), [], ?_, .here _, ?_⟩
      · intro fuel y
        have e1 : fuel + steps (.mk d ks) = fuel + 1 := by
          rw [steps, if_neg hE]
        rw [e1, loop, hn, hm, hc]
        dsimp only
        rw [show (Node.mk e l).data = e from rfl]
        cases e with
        | element e' =>
          exfalso
          cases d with
          | element => exact hE rfl
          | _ => exact hs.1.elim
        | _ =>
          dsimp only
          rw [show nodeOut ct dst nd m.data _ = some (formOf dst (here M d)) from ho, cat_assoc]
      · rw [out, if_neg hE, List.append_nil, List.append_nil]

theorem loop_forest (ct dst : CharT) (nd : Bool) (root : Node) : ∀ (k : List Dom) (l : List Node) (m : Node) (M : Spec.HtmlSerial.Data)
    (p : Ptr) (i : Nat) (x : List Ptr) (c : List Nat) (x' : List Ptr), fetch root p = some m → (∀ j : Nat, l[j]? = m.kids[i + j]?) →
    ShowsData ct m.data M → ShowsAll ct l k → (∀ D ∈ k, D.data.isText → TextOk nd M) → Pops ct dst root p x c x' →
    ∃ x2 w c2, (∀ fuel y, loop ct dst nd root (fuel + stepsAll k) x ((List.range' i l.length).map (· :: p) ++ y) =
        cat (some w) (loop ct dst nd root fuel x2 y)) ∧
      Pops ct dst root p x2 c2 x' ∧ w ++ c2 = c ++ formOf dst (outs M k)
  | [], [], m, M, p, i, x, c, x', hm, hl, hM, hs, ht, hp => by
    refine ⟨x, [], c, ?_, hp, ?_⟩
    · intro fuel y
      rw [stepsAll, cat_nil]; rfl
    · rw [outs]; cases dst <;> simp [formOf]
  | D :: k, n :: l, m, M, p, i, x, c, x', hm, hl, hM, hs, ht, hp => by
    unfold ShowsAll at hs
    have hn : fetch root (i :: p) = some n := by
      rw [fetch_cons root p i m hm]
      have := hl 0
      simpa using this.symm
    obtain ⟨x1, w1, c1, a1, a2, a3⟩ := loop_node ct dst nd root D n m M p i x c x' hm hn hM hs.1 (ht D (by simp)) hp
    obtain ⟨x2, w2, c2, b1, b2, b3⟩ := loop_forest ct dst nd root k l m M p (i + 1) x1 c1 x' hm
      (by intro j; have := hl (j + 1); rw [show i + 1 + j = i + (j + 1) by omega]; simpa using this) hM hs.2
      (fun D hD => ht D (by simp [hD])) a2
    refine ⟨x2, w1 ++ w2, c2, ?_, b2, ?_⟩
    · intro fuel y
      rw [stepsAll, show fuel + (steps D + stepsAll k) = (fuel + stepsAll k) + steps D by omega, List.length_cons,
        List.range'_succ, List.map_cons, List.cons_append, a1, b1, cat_assoc]
    · rw [List.append_assoc, b3, outs, form_append, ← List.append_assoc, a3, List.append_assoc]
  | [], _ :: _, _, _, _, _, _, _, _, _, _, _, hs, _, _ => by unfold ShowsAll at hs; exact hs.elim
  | _ :: _, [], _, _, _, _, _, _, _, _, _, _, hs, _, _ => by unfold ShowsAll at hs; exact hs.elim
end

/-- What the code writes, for every tree. -/
theorem serialize_exact (ct dst : CharT) (nd : Bool) (n : Node) (D : Dom) (h : Shows ct n D)
    (ht : ∀ k ∈ D.kids, k.data.isText → TextOk nd D.data) :
    serialize ct dst nd n = some (formOf dst (if HtmlElement voidNames D.data then [] else outs D.data D.kids)) := by
  obtain ⟨d, l⟩ := n
  obtain ⟨d', k⟩ := D
  unfold Shows at h
  have hv := void_iff ct d d' h.1
  unfold serialize
  by_cases c : HtmlElement voidNames d'
  · rw [if_pos (show serializesAsVoid (Node.mk d l).data = true from hv.mpr c), if_pos (show HtmlElement voidNames (Dom.mk d' k).data from c)]
    cases dst <;> rfl
  · rw [if_neg (show ¬ serializesAsVoid (Node.mk d l).data = true from fun x => c (hv.mp x)),
      if_neg (show ¬ HtmlElement voidNames (Dom.mk d' k).data from c), kidPtrs_eq]
    obtain ⟨x2, w, c2, h1, h2, h3⟩ := loop_forest ct dst nd (.mk d l) k l (.mk d l) d' [] 0 [[]] [] [] (by simp [fetch, Node.walk])
      (by intro j; simp [Node.kids]) h.1 h.2 ht (.here _)
    have hle := stepsAll_le ct l k h.2
    have e1 : (Node.mk d l).size = (1 + sizes l - stepsAll k) + stepsAll k := by
      rw [Node.size]; omega
    have := h1 (1 + sizes l - stepsAll k) []
    rw [List.append_nil] at this
    rw [e1, show (Node.mk d l).kids.length = l.length from rfl, this, loop, pops_rest ct dst _ x2 c2 [] h2, cat_some, h3, List.nil_append]
    rfl

end Verif.Proof.HtmlSerial
