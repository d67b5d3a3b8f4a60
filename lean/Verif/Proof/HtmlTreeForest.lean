import Verif.Model.HtmlTree
import Mathlib.Logic.Relation
/- The tree that the parser makes is a tree: what its operations keep. -/
namespace Verif.Proof.HtmlTree.Forest
open Verif.Model.HtmlTree

variable {d d' : Dom} {x y z p n : Nat} {k : Kind} {pl : Place}

/-! Reading behind changes. -/

theorem get_modify {f : Node → Node} : (d.modify x f)[y]? = if x = y then (d[y]?).map f else d[y]? := by
  rw [List.getElem?_modify]
  split
  · rfl
  · cases d[y]? <;> rfl

theorem kind_add : kindOf (d ++ [⟨k, none, []⟩]) y = if y = d.length then some k else kindOf d y := by
  unfold kindOf
  by_cases h : y = d.length
  · subst h; simp
  · rw [if_neg h]
    rcases Nat.lt_or_ge y d.length with h1 | h1
    · rw [List.getElem?_append_left h1]
    · rw [List.getElem?_eq_none (by simp; omega), List.getElem?_eq_none h1]

theorem parent_add : parentOf (d ++ [⟨k, none, []⟩]) y = parentOf d y := by
  unfold parentOf
  rcases Nat.lt_or_ge y d.length with h1 | h1
  · rw [List.getElem?_append_left h1]
  · rw [List.getElem?_eq_none h1]
    by_cases h : y = d.length
    · subst h; simp
    · rw [List.getElem?_eq_none (by simp; omega)]

theorem kids_add : kidsOf (d ++ [⟨k, none, []⟩]) y = kidsOf d y := by
  unfold kidsOf
  rcases Nat.lt_or_ge y d.length with h1 | h1
  · rw [List.getElem?_append_left h1]
  · rw [List.getElem?_eq_none h1]
    by_cases h : y = d.length
    · subst h; simp
    · rw [List.getElem?_eq_none (by simp; omega)]

/-- Put at a place. -/
def put (pl : Place) (x : Nat) (l : List Nat) : List Nat :=
  match pl with
  | .last _ => l ++ [x]
  | .before y => insBefore y x l

theorem mem_insBefore {l : List Nat} : z ∈ insBefore y x l ↔ z = x ∨ z ∈ l := by
  induction l with
  | nil => simp [insBefore]
  | cons a l ih =>
    unfold insBefore
    split
    · simp
    · simp [ih]; tauto

theorem nodup_insBefore {l : List Nat} (h : l.Nodup) (hx : x ∉ l) : (insBefore y x l).Nodup := by
  induction l with
  | nil => simp [insBefore]
  | cons a l ih =>
    unfold insBefore
    simp only [List.mem_cons, not_or] at hx
    split
    · simp only [List.nodup_cons, List.mem_cons, not_or] at h ⊢
      exact ⟨hx, h⟩
    · simp only [List.nodup_cons, mem_insBefore, not_or] at h ⊢
      exact ⟨⟨Ne.symm hx.1, h.1⟩, ih h.2 hx.2⟩

theorem mem_put {l : List Nat} : z ∈ put pl x l ↔ z = x ∨ z ∈ l := by
  cases pl with
  | last => simp [put]; tauto
  | before => exact mem_insBefore

theorem nodup_put {l : List Nat} (h : l.Nodup) (hx : x ∉ l) : (put pl x l).Nodup := by
  cases pl with
  | last =>
    simp only [put]
    rw [List.nodup_append]
    exact ⟨h, by simp, fun a ha b hb => by simp at hb; subst hb; rintro rfl; exact hx ha⟩
  | before => exact nodup_insBefore h hx

theorem link_eq (e : link d pl x = .ok d') : ∃ p, pl.parent d = some p ∧
    d' = (d.modify p fun n => { n with kids := put pl x n.kids }).modify x fun n => { n with parent := some p } := by
  unfold link at e
  split at e
  · cases e; exact ⟨_, rfl, rfl⟩
  · split at e
    · cases e
    · next hp => cases e; exact ⟨_, hp, rfl⟩

theorem link_kind (e : link d pl x = .ok d') : kindOf d' y = kindOf d y := by
  obtain ⟨p, -, rfl⟩ := link_eq e
  unfold kindOf
  rw [get_modify, get_modify]
  split <;> split <;> cases d[y]? <;> rfl

theorem link_length (e : link d pl x = .ok d') : d'.length = d.length := by
  obtain ⟨p, -, rfl⟩ := link_eq e
  simp

theorem link_parent (e : link d pl x = .ok d') (hx : x < d.length) : parentOf d' y = if y = x then pl.parent d else parentOf d y := by
  obtain ⟨p, hp, rfl⟩ := link_eq e
  unfold parentOf
  rw [get_modify, get_modify]
  by_cases h : x = y
  · subst h
    rw [if_pos rfl, if_pos rfl, hp, List.getElem?_eq_getElem hx]
    split <;> rfl
  · rw [if_neg h, if_neg (Ne.symm h)]
    split <;> cases d[y]? <;> rfl

theorem link_kids (e : link d pl x = .ok d') (hp : ∀ p, pl.parent d = some p → p < d.length) :
    kidsOf d' y = if pl.parent d = some y then put pl x (kidsOf d y) else kidsOf d y := by
  obtain ⟨p, hp', rfl⟩ := link_eq e
  have hl := hp p hp'
  unfold kidsOf
  rw [hp', get_modify, get_modify]
  by_cases h : p = y
  · subst h
    rw [if_pos rfl, if_pos rfl, List.getElem?_eq_getElem hl]
    split <;> rfl
  · rw [if_neg h, if_neg (show ¬ some p = some y by simpa using h)]
    split <;> cases d[y]? <;> rfl

theorem unlink_kind : kindOf (unlink d x) y = kindOf d y := by
  unfold unlink
  split
  · rfl
  · unfold kindOf
    rw [get_modify, get_modify]
    split <;> split <;> cases d[y]? <;> rfl

theorem unlink_length : (unlink d x).length = d.length := by
  unfold unlink
  split
  · rfl
  · simp

theorem unlink_parent : parentOf (unlink d x) y = if y = x then none else parentOf d y := by
  unfold unlink
  split
  · next h =>
    split
    · next e => rw [e, h]
    · rfl
  · next p h =>
    unfold parentOf
    rw [get_modify, get_modify]
    by_cases h : x = y
    · subst h
      rw [if_pos rfl, if_pos rfl]
      split <;> cases d[x]? <;> rfl
    · rw [if_neg h, if_neg (Ne.symm h)]
      split <;> cases d[y]? <;> rfl

theorem unlink_kids : kidsOf (unlink d x) y = if parentOf d x = some y then (kidsOf d y).erase x else kidsOf d y := by
  unfold unlink
  split
  · next h => rw [h, if_neg (by simp)]
  · next p h =>
    rw [h]
    unfold kidsOf
    rw [get_modify, get_modify]
    by_cases h : p = y
    · subst h
      rw [if_pos rfl, if_pos rfl]
      split <;> cases d[p]? <;> rfl
    · rw [if_neg h, if_neg (show ¬ some p = some y by simpa using h)]
      split <;> cases d[y]? <;> rfl

theorem kids_nil (h : kindOf d y = none) : kidsOf d y = [] := by
  unfold kindOf at h
  unfold kidsOf
  cases hd : d[y]? with
  | none => rfl
  | some => rw [hd] at h; cases h

theorem lt_of_kind (h : kindOf d y = some k) : y < d.length := by
  unfold kindOf at h
  cases hd : d[y]? with
  | none => rw [hd] at h; cases h
  | some => exact (List.getElem?_eq_some_iff.mp hd).1

theorem kind_of_lt (h : y < d.length) : ∃ k, kindOf d y = some k := ⟨d[y].kind, by unfold kindOf; rw [List.getElem?_eq_getElem h]; rfl⟩

theorem lt_of_parent (h : parentOf d y = some p) : y < d.length := by
  unfold parentOf at h
  cases hd : d[y]? with
  | none => rw [hd] at h; cases h
  | some => exact (List.getElem?_eq_some_iff.mp hd).1

/-! Well-formed trees. -/

/-- A node is an element. -/
def Elem (d : Dom) (x : Nat) : Prop := ∃ ns t a, kindOf d x = some (.elem ns t a)

/-- `y` is `x` or below `x`. -/
def Below (d : Dom) (x y : Nat) : Prop := Relation.ReflTransGen (fun y p => parentOf d y = some p) y x

structure Wf (d : Dom) : Prop where
  doc : kindOf d 0 = some .document
  top : parentOf d 0 = none
  only : ∀ x, kindOf d x = some .document → x = 0
  kid : ∀ x p, x ∈ kidsOf d p ↔ parentOf d x = some p
  once : ∀ p, (kidsOf d p).Nodup
  box : ∀ x p, parentOf d x = some p → p = 0 ∨ Elem d p
  text : ∀ x t, kindOf d x = some (.text t) → t ≠ []
  rank : ∃ r : Nat → Nat, ∀ x p, parentOf d x = some p → r p < r x

theorem Elem.lt (h : Elem d x) : x < d.length := by
  obtain ⟨ns, t, a, h⟩ := h
  exact lt_of_kind h

theorem Elem.ne (h : Elem d x) (w : Wf d) : x ≠ 0 := by
  rintro rfl
  obtain ⟨ns, t, a, h⟩ := h
  rw [w.doc] at h
  cases h

theorem Wf.pos (w : Wf d) : 0 < d.length := lt_of_kind w.doc

theorem Wf.lt (w : Wf d) (h : parentOf d x = some p) : p < d.length := by
  rcases w.box x p h with rfl | h
  · exact w.pos
  · exact h.lt

theorem Below.le {r : Nat → Nat} (hr : ∀ x p, parentOf d x = some p → r p < r x) (h : Below d x y) : r x ≤ r y := by
  induction h using Relation.ReflTransGen.head_induction_on with
  | refl => exact Nat.le_refl _
  | head h _ ih => exact Nat.le_trans ih (Nat.le_of_lt (hr _ _ h))

theorem below_fresh (h : ∀ y, parentOf d y ≠ some x) (hb : Below d x y) : y = x := by
  rcases Relation.ReflTransGen.cases_tail hb with h1 | ⟨z, -, h1⟩
  · exact h1.symm
  · exact absurd h1 (h z)

theorem not_below {f : Nat} (h : under d x f y = false) : ¬ Below d x y := by
  induction f generalizing y with
  | zero => cases h
  | succ f ih =>
    unfold under at h
    split at h
    · cases h
    · next hne =>
      intro hb
      rcases Relation.ReflTransGen.cases_head hb with h1 | ⟨z, h1, h2⟩
      · exact hne h1
      · rw [h1] at h
        exact ih h h2

/-- Where the parent of one node has changed. -/
theorem below_moved (h : ∀ y, parentOf d' y = if y = x then some p else parentOf d y) (hb : Below d' z y) : Below d z y ∨ Below d x y := by
  induction hb using Relation.ReflTransGen.head_induction_on with
  | refl => exact .inl .refl
  | head h1 _ ih =>
    rename_i a c _
    by_cases ha : a = x
    · subst ha; exact .inr .refl
    · rw [h, if_neg ha] at h1
      exact ih.imp (.head h1) (.head h1)

theorem wf_add (w : Wf d) (hk : k ≠ .document) (ht : ∀ t, k = .text t → t ≠ []) : Wf (d ++ [⟨k, none, []⟩]) where
  doc := by rw [kind_add, if_neg (Nat.ne_of_lt w.pos)]; exact w.doc
  top := by rw [parent_add]; exact w.top
  only x h := by
    rw [kind_add] at h
    split at h
    · cases h; exact absurd rfl hk
    · exact w.only x h
  kid x p := by rw [kids_add, parent_add]; exact w.kid x p
  once p := by rw [kids_add]; exact w.once p
  box x p h := by
    rw [parent_add] at h
    refine (w.box x p h).imp id fun ⟨ns, t, a, h⟩ => ⟨ns, t, a, ?_⟩
    rw [kind_add, if_neg (Nat.ne_of_lt (lt_of_kind h))]
    exact h
  text x t h := by
    rw [kind_add] at h
    split at h
    · cases h; exact ht _ rfl
    · exact w.text x t h
  rank := by
    obtain ⟨r, hr⟩ := w.rank
    exact ⟨r, fun x p h => hr x p (by rwa [parent_add] at h)⟩

open Classical in
theorem wf_link (w : Wf d) (hx : x < d.length) (h0 : x ≠ 0) (hn : parentOf d x = none) (hp : pl.parent d = some p) (hb : p = 0 ∨ Elem d p)
    (hc : ¬ Below d x p) (e : link d pl x = .ok d') : Wf d' := by
  have hl : p < d.length := by
    rcases hb with rfl | h
    · exact w.pos
    · exact h.lt
  have hk : ∀ y, kidsOf d' y = if p = y then put pl x (kidsOf d y) else kidsOf d y := fun y => by
    rw [link_kids e fun q hq => by rw [hp] at hq; cases hq; exact hl, hp]; simp
  have hpa : ∀ y, parentOf d' y = if y = x then some p else parentOf d y := fun y => by rw [link_parent e hx, hp]
  refine ⟨?_, ?_, ?_, ?_, ?_, ?_, ?_, ?_⟩
  · rw [link_kind e]; exact w.doc
  · rw [hpa, if_neg (Ne.symm h0)]; exact w.top
  · intro y h; rw [link_kind e] at h; exact w.only y h
  · intro y q
    rw [hk, hpa]
    by_cases h1 : p = q
    · subst h1
      rw [if_pos rfl, mem_put]
      by_cases h2 : y = x
      · simp [h2]
      · simp only [h2, false_or, if_false]; exact w.kid y p
    · rw [if_neg h1]
      by_cases h2 : y = x
      · subst h2
        rw [if_pos rfl, w.kid, hn]
        simp [h1]
      · rw [if_neg h2]; exact w.kid y q
  · intro q
    rw [hk]
    split
    · exact nodup_put (w.once q) fun h => by rw [w.kid, hn] at h; cases h
    · exact w.once q
  · intro y q h
    have he : q = 0 ∨ Elem d q := by
      rw [hpa] at h
      split at h
      · cases h; exact hb
      · exact w.box y q h
    refine he.imp id fun ⟨ns, t, a, h⟩ => ⟨ns, t, a, ?_⟩
    rw [link_kind e]; exact h
  · intro y t h; rw [link_kind e] at h; exact w.text y t h
  · obtain ⟨r, hr⟩ := w.rank
    refine ⟨fun y => if Below d x y then r y + r p + 1 else r y, fun y q h => ?_⟩
    rw [hpa] at h
    dsimp only
    split at h
    · next hy =>
      cases h
      subst hy
      rw [if_neg hc, if_pos (show Below d y y from .refl)]
      omega
    · next hy =>
      have := hr y q h
      by_cases hby : Below d x y
      · have hq : Below d x q := by
          rcases Relation.ReflTransGen.cases_head hby with h1 | ⟨z, h1, h2⟩
          · exact absurd h1 hy
          · rw [h] at h1; cases h1; exact h2
        rw [if_pos hby, if_pos hq]; omega
      · rw [if_neg hby]
        by_cases hq : Below d x q
        · exact absurd (.head h hq) hby
        · rw [if_neg hq]; exact this

theorem wf_unlink (w : Wf d) : Wf (unlink d x) where
  doc := by rw [unlink_kind]; exact w.doc
  top := by
    rw [unlink_parent]
    split
    · rfl
    · exact w.top
  only y h := by rw [unlink_kind] at h; exact w.only y h
  kid y p := by
    rw [unlink_kids, unlink_parent]
    by_cases h1 : parentOf d x = some p
    · rw [if_pos h1, (w.once p).mem_erase_iff, w.kid]
      by_cases h2 : y = x <;> simp [h2]
    · rw [if_neg h1, w.kid]
      by_cases h2 : y = x
      · subst h2; simp [h1]
      · simp [h2]
  once p := by
    rw [unlink_kids]
    split
    · exact (w.once p).erase x
    · exact w.once p
  box y p h := by
    rw [unlink_parent] at h
    split at h
    · cases h
    · refine (w.box y p h).imp id fun ⟨ns, t, a, h⟩ => ⟨ns, t, a, ?_⟩
      rw [unlink_kind]; exact h
  text y t h := by rw [unlink_kind] at h; exact w.text y t h
  rank := by
    obtain ⟨r, hr⟩ := w.rank
    refine ⟨r, fun y p h => ?_⟩
    rw [unlink_parent] at h
    split at h
    · cases h
    · exact hr y p h

/-- What moving a node does. -/
theorem move_ok (w : Wf d) (hx : x < d.length) (h0 : x ≠ 0) (hb : ∀ p, pl.parent d = some p → p = 0 ∨ Elem d p) (e : moveNode d pl x = .ok d') :
    ∃ p, pl.parent d = some p ∧ Wf d' ∧ d'.length = d.length ∧ (∀ y, kindOf d' y = kindOf d y) ∧
      (∀ y, parentOf d' y = if y = x then some p else parentOf d y) ∧ ∀ q, q ≠ p → parentOf d x ≠ some q → kidsOf d' q = kidsOf d q := by
  unfold moveNode at e
  split at e
  · cases e
  · next p hp =>
    split at e
    · cases e
    · next hu =>
      split at e
      · cases e
      · next hpl =>
        have hp' : pl.parent (unlink d x) = some p := by
          cases pl with
          | last => exact hp
          | before z =>
            show parentOf _ z = _
            rw [unlink_parent, if_neg (fun h => hpl (by rw [h]))]
            exact hp
        have hB := hb p hp
        have hB' : p = 0 ∨ Elem (unlink d x) p := hB.imp id fun ⟨ns, t, a, h⟩ => ⟨ns, t, a, by rw [unlink_kind]; exact h⟩
        have hx' : x < (unlink d x).length := by rw [unlink_length]; exact hx
        have hc : ¬ Below (unlink d x) x p := by
          intro h
          refine not_below (by simpa using hu) (?_ : Below d x p)
          refine Relation.ReflTransGen.mono (fun a b h => ?_) _ _ h
          rw [unlink_parent] at h
          split at h
          · cases h
          · exact h
        refine ⟨p, hp, wf_link (wf_unlink w) hx' h0 (by rw [unlink_parent, if_pos rfl]) hp' hB' hc e, ?_, fun y => ?_, fun y => ?_, fun q h1 h2 => ?_⟩
        · rw [link_length e, unlink_length]
        · rw [link_kind e, unlink_kind]
        · rw [link_parent e hx', hp', unlink_parent]
          split <;> rfl
        · rw [link_kids e, hp', if_neg (by simpa using Ne.symm h1), unlink_kids, if_neg h2]
          intro q' hq'
          rw [hp'] at hq'
          cases hq'
          rcases hB' with rfl | h
          · rw [unlink_length]; exact w.pos
          · exact h.lt

/-- The same, but for the attributes of elements and the text of text nodes. -/
def Sim (k k' : Option Kind) : Prop :=
  k' = k ∨ (∃ ns t a a', k = some (.elem ns t a) ∧ k' = some (.elem ns t a')) ∨ ∃ t t', k = some (.text t) ∧ k' = some (.text t') ∧ t' ≠ []

theorem wf_sim (w : Wf d) (h1 : ∀ y, parentOf d' y = parentOf d y) (h2 : ∀ y, kidsOf d' y = kidsOf d y) (h3 : ∀ y, Sim (kindOf d y) (kindOf d' y)) : Wf d' where
  doc := by
    rcases h3 0 with h | ⟨_, _, _, _, h, -⟩ | ⟨_, _, h, -⟩
    · rw [h]; exact w.doc
    · rw [w.doc] at h; cases h
    · rw [w.doc] at h; cases h
  top := by rw [h1]; exact w.top
  only y h := by
    rcases h3 y with h' | ⟨_, _, _, _, -, h'⟩ | ⟨_, _, -, h', -⟩
    · rw [h'] at h; exact w.only y h
    · rw [h'] at h; cases h
    · rw [h'] at h; cases h
  kid y p := by rw [h1, h2]; exact w.kid y p
  once p := by rw [h2]; exact w.once p
  box y p h := by
    rw [h1] at h
    refine (w.box y p h).imp id fun ⟨ns, t, a, h⟩ => ?_
    rcases h3 p with h' | ⟨_, _, _, _, -, h'⟩ | ⟨_, _, h', -⟩
    · exact ⟨ns, t, a, by rw [h']; exact h⟩
    · exact ⟨_, _, _, h'⟩
    · rw [h] at h'; cases h'
  text y t h := by
    rcases h3 y with h' | ⟨_, _, _, _, -, h'⟩ | ⟨_, _, -, h', ht⟩
    · rw [h'] at h; exact w.text y t h
    · rw [h'] at h; cases h
    · rw [h'] at h; cases h; exact ht
  rank := by
    obtain ⟨r, hr⟩ := w.rank
    exact ⟨r, fun y p h => hr y p (by rwa [h1] at h)⟩

/-- A change of the value of a node. -/
theorem sim_modify {f : Kind → Kind} (hf : ∀ k, kindOf d x = some k → Sim (some k) (some (f k))) (w : Wf d) :
    let d' := d.modify x fun n => { n with kind := f n.kind }
    Wf d' ∧ (∀ y, Sim (kindOf d y) (kindOf d' y)) ∧ (∀ y, kidsOf d' y = kidsOf d y) := by
  intro d'
  have h1 : ∀ y, parentOf d' y = parentOf d y := fun y => by
    unfold parentOf; rw [get_modify]; split <;> cases d[y]? <;> rfl
  have h2 : ∀ y, kidsOf d' y = kidsOf d y := fun y => by
    unfold kidsOf; rw [get_modify]; split <;> cases d[y]? <;> rfl
  have h3 : ∀ y, Sim (kindOf d y) (kindOf d' y) := fun y => by
    by_cases h : x = y
    · subst h
      have e : kindOf d' x = (kindOf d x).map f := by
        unfold kindOf; rw [get_modify, if_pos rfl]; cases d[x]? <;> rfl
      rw [e]
      cases hk : kindOf d x with
      | none => exact .inl rfl
      | some k => exact hf k hk
    · have e : kindOf d' y = kindOf d y := by unfold kindOf; rw [get_modify, if_neg h]
      rw [e]; exact .inl rfl
  exact ⟨wf_sim w h1 h2 h3, h3, h2⟩

end Verif.Proof.HtmlTree.Forest
