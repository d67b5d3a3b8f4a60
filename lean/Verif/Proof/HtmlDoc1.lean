import Verif.Spec.HtmlTree
import Verif.Spec.HtmlDoc
import Mathlib.Tactic.Common
/- How the tree grows at its end while a tree in order is read. -/
namespace Verif.Proof.HtmlDoc
open Verif.Model.HtmlTree
open Verif.Spec.HtmlTree (data view document)
open Verif.Spec.HtmlSerial (Data)

/-- The trees of the standard. -/
abbrev Tree := Verif.Spec.HtmlSerial.Dom

mutual
/-- The tree below a node is the given one; children have greater indices. -/
def Is (d : Dom) : Nat → Tree → Prop
  | x, .mk dt ks => (kindOf d x).map data = some dt ∧ IsAll d x (kidsOf d x) ks

def IsAll (d : Dom) (p : Nat) : List Nat → List Tree → Prop
  | [], [] => True
  | y :: ys, n :: r => p < y ∧ Is d y n ∧ IsAll d p ys r
  | _, _ => False
end

mutual
theorem is_frame {d d' : Dom} {lo : Nat} (h : ∀ y, lo ≤ y → y < d.length → d'[y]? = d[y]?) :
    ∀ (T : Tree) (x : Nat), lo ≤ x → Is d x T → Is d' x T
  | .mk dt ks, x, hx, hi => by
    unfold Is at hi ⊢
    have hlt : x < d.length := by
      by_contra hge
      rw [show kindOf d x = none by simp [kindOf, Nat.le_of_not_lt hge]] at hi
      cases hi.1
    have e := h x hx hlt
    have e1 : kindOf d' x = kindOf d x := by simp [kindOf, e]
    have e2 : kidsOf d' x = kidsOf d x := by simp [kidsOf, e]
    rw [e1, e2]
    exact ⟨hi.1, isAll_frame h ks x (kidsOf d x) hx hi.2⟩

theorem isAll_frame {d d' : Dom} {lo : Nat} (h : ∀ y, lo ≤ y → y < d.length → d'[y]? = d[y]?) :
    ∀ (ks : List Tree) (p : Nat) (ys : List Nat), lo ≤ p → IsAll d p ys ks → IsAll d' p ys ks
  | [], p, [], _, _ => by unfold IsAll; trivial
  | [], p, _ :: _, _, hi => by unfold IsAll at hi; exact hi.elim
  | _ :: _, p, [], _, hi => by unfold IsAll at hi; exact hi.elim
  | n :: r, p, y :: ys, hp, hi => by
    unfold IsAll at hi ⊢
    exact ⟨hi.1, is_frame h n y (by omega) hi.2.1, isAll_frame h r p ys hp hi.2.2⟩
end

theorem isAll_append {d : Dom} {p : Nat} : ∀ {ys zs : List Nat} {ks ls : List Tree}, IsAll d p ys ks → IsAll d p zs ls →
    IsAll d p (ys ++ zs) (ks ++ ls)
  | [], _, [], _, _, h => h
  | [], _, _ :: _, _, h, _ => by unfold IsAll at h; exact h.elim
  | _ :: _, _, [], _, h, _ => by unfold IsAll at h; exact h.elim
  | y :: ys, zs, n :: r, ls, h, h2 => by
    unfold IsAll at h
    show IsAll d p (y :: (ys ++ zs)) (n :: (r ++ ls))
    unfold IsAll
    exact ⟨h.1, h.2.1, isAll_append h.2.2 h2⟩

theorem isAll_cons {d : Dom} {p y : Nat} {ys : List Nat} {n : Tree} {r : List Tree} :
    IsAll d p (y :: ys) (n :: r) ↔ p < y ∧ Is d y n ∧ IsAll d p ys r := by
  constructor
  · intro h; unfold IsAll at h; exact h
  · intro h; unfold IsAll; exact h

theorem isAll_nil {d : Dom} {p : Nat} : IsAll d p [] [] := by unfold IsAll; trivial

theorem isAll_raise {d : Dom} {p q : Nat} : ∀ {ys : List Nat} {ks : List Tree}, (∀ y ∈ ys, q < y) → IsAll d p ys ks → IsAll d q ys ks
  | [], [], _, _ => isAll_nil
  | [], _ :: _, _, h => by unfold IsAll at h; exact h.elim
  | _ :: _, [], _, h => by unfold IsAll at h; exact h.elim
  | y :: ys, n :: r, hq, h => by
    rw [isAll_cons] at h ⊢
    exact ⟨hq y (by simp), h.2.1, isAll_raise (fun z hz => hq z (by simp [hz])) h.2.2⟩

mutual
theorem view_is {d : Dom} : ∀ (T : Tree) (x f : Nat), d.length ≤ f + x → Is d x T → view d f x = T
  | .mk dt ks, x, f, hf, hi => by
    unfold Is at hi
    have hlt : x < d.length := by
      by_contra hge
      rw [show kindOf d x = none by simp [kindOf, Nat.le_of_not_lt hge]] at hi
      cases hi.1
    obtain ⟨f, rfl⟩ : ∃ g, f = g + 1 := ⟨f - 1, by omega⟩
    unfold view
    rw [hi.1, view_all ks x (kidsOf d x) f (by omega) hi.2]
    rfl

theorem view_all {d : Dom} : ∀ (ks : List Tree) (p : Nat) (ys : List Nat) (f : Nat), d.length ≤ f + p + 1 → IsAll d p ys ks →
    ys.map (view d f) = ks
  | [], p, [], f, _, _ => rfl
  | [], p, _ :: _, f, _, hi => by unfold IsAll at hi; exact hi.elim
  | _ :: _, p, [], f, _, hi => by unfold IsAll at hi; exact hi.elim
  | n :: r, p, y :: ys, f, hf, hi => by
    rw [isAll_cons] at hi
    rw [List.map_cons, view_is n y f (by omega) hi.2.1, view_all r p ys f hf hi.2.2]
end

theorem document_is {d : Dom} {T : Tree} (h : Is d 0 T) : document d = T := view_is T 0 _ (by omega) h

/-- The node `n` gets new children for the trees, and nothing else changes. -/
def Grown (d : Dom) (n : Nat) (ks : List Tree) (d' : Dom) : Prop :=
  n < d.length ∧ d.length ≤ d'.length ∧ (∀ x, x ≠ n → x < d.length → d'[x]? = d[x]?) ∧
    ∃ xs, (∀ x ∈ xs, d.length ≤ x) ∧ d'[n]? = (d[n]?).map (fun nd => { nd with kids := nd.kids ++ xs }) ∧ IsAll d' n xs ks

theorem grown_refl {d : Dom} {n : Nat} (h : n < d.length) : Grown d n [] d :=
  ⟨h, Nat.le_refl _, fun _ _ _ => rfl, [], by simp, by simp, isAll_nil⟩

theorem grown_trans {d d1 d2 : Dom} {n : Nat} {ks ls : List Tree} (h1 : Grown d n ks d1) (h2 : Grown d1 n ls d2) :
    Grown d n (ks ++ ls) d2 := by
  obtain ⟨a1, a2, a3, xs, a4, a5, a6⟩ := h1
  obtain ⟨b1, b2, b3, ys, b4, b5, b6⟩ := h2
  refine ⟨a1, by omega, fun x hx hl => by rw [b3 x hx (by omega), a3 x hx hl], xs ++ ys, ?_, ?_, ?_⟩
  · intro x hx
    rcases List.mem_append.mp hx with hx | hx
    · exact a4 x hx
    · have := b4 x hx; omega
  · rw [b5, a5]
    cases d[n]? <;> simp
  · refine isAll_append ?_ b6
    have : ∀ (ks : List Tree) (zs : List Nat), (∀ x ∈ zs, d.length ≤ x) → IsAll d1 n zs ks → IsAll d2 n zs ks := by
      intro ks zs
      induction zs generalizing ks with
      | nil =>
        intro _ h
        cases ks with
        | nil => exact isAll_nil
        | cons _ _ => unfold IsAll at h; exact h.elim
      | cons z zs ih =>
        intro hz h
        cases ks with
        | nil => unfold IsAll at h; exact h.elim
        | cons k ks =>
          rw [isAll_cons] at h ⊢
          refine ⟨h.1, is_frame (lo := d.length) (fun y hy hl => b3 y (by omega) hl) k z (hz z (by simp)) h.2.1, ih ks
            (fun x hx => hz x (by simp [hx])) h.2.2⟩
    exact this ks xs a4 a6

/-! ### Linking a new node -/

/-- The store behind linking a new node. -/
theorem link_new (d : Dom) (n : Nat) (k : Kind) (hn : n < d.length) :
    ∃ d', link (d ++ [⟨k, none, []⟩]) (.last n) d.length = .ok d' ∧ d'.length = d.length + 1 ∧
      (∀ x, x ≠ n → x < d.length → d'[x]? = d[x]?) ∧
      d'[n]? = (d[n]?).map (fun nd => { nd with kids := nd.kids ++ [d.length] }) ∧ d'[d.length]? = some ⟨k, some n, []⟩ := by
  refine ⟨_, rfl, by simp, fun x hx hl => ?_, ?_, ?_⟩
  · rw [List.getElem?_modify, List.getElem?_modify, List.getElem?_append_left hl]
    simp only [show d.length ≠ x by omega, if_false, show n ≠ x from fun h => hx h.symm]
    cases d[x]? <;> rfl
  · rw [List.getElem?_modify, List.getElem?_modify, List.getElem?_append_left hn]
    simp only [show d.length ≠ n by omega, if_false, if_true]
    cases d[n]? <;> rfl
  · rw [List.getElem?_modify, List.getElem?_modify, List.getElem?_append_right (Nat.le_refl _)]
    simp [show n ≠ d.length by omega]

/-- A node without children. -/
theorem grown_leaf {d d' : Dom} {n : Nat} {k : Kind} (hn : n < d.length) (hl : d'.length = d.length + 1)
    (h1 : ∀ x, x ≠ n → x < d.length → d'[x]? = d[x]?)
    (h2 : d'[n]? = (d[n]?).map (fun nd => { nd with kids := nd.kids ++ [d.length] })) (h3 : d'[d.length]? = some ⟨k, some n, []⟩) :
    Grown d n [.mk (data k) []] d' := by
  refine ⟨hn, by omega, h1, [d.length], by simp, h2, ?_⟩
  rw [isAll_cons]
  refine ⟨hn, ?_, isAll_nil⟩
  unfold Is
  simp [kindOf, kidsOf, h3, isAll_nil]

/-- A node with children. -/
theorem grown_node {d d1 d2 : Dom} {n : Nat} {k : Kind} {ks : List Tree} (hn : n < d.length) (hl : d1.length = d.length + 1)
    (h1 : ∀ x, x ≠ n → x < d.length → d1[x]? = d[x]?)
    (h2 : d1[n]? = (d[n]?).map (fun nd => { nd with kids := nd.kids ++ [d.length] })) (h3 : d1[d.length]? = some ⟨k, some n, []⟩)
    (hg : Grown d1 d.length ks d2) : Grown d n [.mk (data k) ks] d2 := by
  obtain ⟨b1, b2, b3, ys, b4, b5, b6⟩ := hg
  refine ⟨hn, by omega, fun x hx hlx => by rw [b3 x (by omega) (by omega), h1 x hx hlx], [d.length], by simp, ?_, ?_⟩
  · rw [b3 n (by omega) (by omega), h2]
  · rw [isAll_cons]
    refine ⟨hn, ?_, isAll_nil⟩
    unfold Is
    rw [h3] at b5
    simp only [Option.map_some, List.nil_append] at b5
    refine ⟨by simp [kindOf, b5], ?_⟩
    simpa [kidsOf, b5] using b6

/-- A text that becomes longer. -/
theorem grown_more {d d1 : Dom} {n x : Nat} {t : List Nat} (c : Nat) (hx : x ≠ n) (hg : Grown d n [.mk (.text t) []] d1)
    (hlast : (kidsOf d1 n).getLast? = some x) (hk : kindOf d1 x = some (.text t)) :
    Grown d n [.mk (.text (t ++ [c])) []] (d1.modify x fun nd => { nd with kind := .text (t ++ [c]) }) := by
  obtain ⟨a1, a2, a3, xs, a4, a5, a6⟩ := hg
  match xs, a6 with
  | [], h => unfold IsAll at h; exact h.elim
  | [y], h =>
    rw [isAll_cons] at h
    have hy : y = x := by
      have hn : d1[n]? ≠ none := by rw [a5]; simp; omega
      obtain ⟨nd, hnd⟩ := Option.ne_none_iff_exists'.mp (show d[n]? ≠ none by simp; omega)
      rw [hnd] at a5
      simp only [kidsOf, a5, Option.map_some, Option.getD_some, List.getLast?_append] at hlast
      simpa using hlast
    subst hy
    have hge := a4 y (by simp)
    refine ⟨a1, by simpa using a2, fun z hz hl => ?_, [y], a4, ?_, ?_⟩
    · rw [List.getElem?_modify]
      simp [show y ≠ z by omega, a3 z hz hl]
    · rw [List.getElem?_modify]
      simp [hx, a5]
    · rw [isAll_cons]
      refine ⟨h.1, ?_, isAll_nil⟩
      have hI := h.2.1
      unfold Is at hI ⊢
      unfold kindOf at hk
      cases hd : d1[y]? with
      | none => rw [hd] at hk; cases hk
      | some nd =>
        simp only [kindOf, kidsOf, List.getElem?_modify, hd, if_true] at hI ⊢
        exact ⟨rfl, by
          have := hI.2
          simp only [Option.map_some, Option.getD_some] at this ⊢
          cases hkk : nd.kids with
          | nil => simp [hkk, isAll_nil]
          | cons a b => rw [hkk] at this; unfold IsAll at this; exact this.elim⟩
  | _ :: _ :: _, h => rw [isAll_cons] at h; have := h.2.2; unfold IsAll at this; exact this.elim

end Verif.Proof.HtmlDoc
