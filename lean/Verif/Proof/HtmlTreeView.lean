import Verif.Proof.HtmlTreeShape
import Verif.Spec.HtmlForest
import Batteries.Data.List.Perm
/- Reading a well-formed tree. -/
namespace Verif.Proof.HtmlTree.Forest
open Verif.Model.HtmlTree Verif.Proof.HtmlTree.Walk Verif.Spec.HtmlTree
variable {d : Dom} {x y f : Nat}

theorem view_data : (view d f x).data = ((kindOf d x).map data).getD .other := by cases f <;> rfl

theorem short {l : List Nat} (h : l.Nodup) (hl : ∀ y ∈ l, y < d.length) : l.length ≤ d.length := by
  have := (List.subperm_of_subset h (l₂ := List.range d.length) fun y hy => List.mem_range.mpr (hl y hy)).length_le
  simpa using this

/-- No way down is longer than the number of nodes. -/
theorem view_more (w : Wf d) (k : Nat) : ∀ (f x : Nat) (l : List Nat), (x :: l).Nodup → (∀ y ∈ x :: l, y < d.length) → (∀ y ∈ x :: l, Below d y x) →
    d.length ≤ f + (x :: l).length → view d (f + k) x = view d f x
  | 0, x, l, h1, h2, h3, h4 => by
    have hk : kidsOf d x = [] := by
      by_contra hne
      obtain ⟨z, hz⟩ := List.exists_mem_of_ne_nil _ hne
      have hp := (w.kid z x).mp hz
      have hzl : z ∉ x :: l := fun h => by
        obtain ⟨r, hr⟩ := w.rank
        have := hr z x hp
        have := (h3 z h).le hr
        omega
      have := short (d := d) (l := z :: x :: l) (List.nodup_cons.mpr ⟨hzl, h1⟩) (by
        intro y hy
        rcases List.mem_cons.mp hy with rfl | hy
        · exact lt_of_parent hp
        · exact h2 y hy)
      simp only [List.length_cons] at this h4
      omega
    cases k with
    | zero => rfl
    | succ k => rw [Nat.zero_add, view, view, hk]; rfl
  | f + 1, x, l, h1, h2, h3, h4 => by
    rw [show f + 1 + k = (f + k) + 1 by omega, view, view]
    congr 1
    refine List.map_congr_left fun z hz => ?_
    have hp := (w.kid z x).mp hz
    refine view_more w k f z (x :: l) ?_ ?_ ?_ ?_
    · refine List.nodup_cons.mpr ⟨fun h => ?_, h1⟩
      obtain ⟨r, hr⟩ := w.rank
      have := hr z x hp
      have := (h3 z h).le hr
      omega
    · intro y hy
      rcases List.mem_cons.mp hy with rfl | hy
      · exact lt_of_parent hp
      · exact h2 y hy
    · intro y hy
      rcases List.mem_cons.mp hy with rfl | hy
      · exact .refl
      · exact .head hp (h3 y hy)
    · simp only [List.length_cons] at h4 ⊢; omega

theorem view_whole (w : Wf d) (k : Nat) : view d (d.length + k) 0 = document d :=
  view_more w k _ 0 [] (by simp) (by simpa using w.pos) (fun y hy => by cases List.mem_singleton.mp hy; exact .refl) (by simp)

mutual
theorem mem_below (w : Wf d) : ∀ (f x : Nat), ∀ n ∈ below (view d f x), ∃ g y p, n = view d g y ∧ parentOf d y = some p
  | 0, x, n, h => by simp [view, below, belowAll] at h
  | f + 1, x, n, h => by
    rw [view, below] at h
    exact mem_belowAll w f _ (fun y hy => ⟨x, (w.kid y x).mp hy⟩) n h
theorem mem_belowAll (w : Wf d) : ∀ (f : Nat) (l : List Nat), (∀ y ∈ l, ∃ p, parentOf d y = some p) → ∀ n ∈ belowAll (l.map (view d f)),
    ∃ g y p, n = view d g y ∧ parentOf d y = some p
  | f, [], _, n, h => by simp [belowAll] at h
  | f, x :: l, hl, n, h => by
    simp only [List.map_cons, belowAll, List.mem_cons, List.mem_append] at h
    rcases h with rfl | h | h
    · obtain ⟨p, hp⟩ := hl x (by simp)
      exact ⟨f, x, p, rfl, hp⟩
    · exact mem_below w f x n h
    · exact mem_belowAll w f l (fun y hy => hl y (by simp [hy])) n h
end

/-- Some of the children. -/
def Heads (d : Dom) : Prop := Wf d ∧ ∃ a e b, kidsOf d 0 = a ++ e ++ b ∧ Pro d a ∧ (∀ x ∈ b, Cm d x) ∧ (e = [] ∨ ∃ r, e = [r] ∧ Rt d r)

theorem heads_of {s : S} (h : I A B H s) : Heads s.dom := by
  rcases h with ⟨-, r, o⟩ | ⟨-, h⟩ | ⟨-, h⟩
  · obtain ⟨a, b, h1, h2, h3, h4⟩ := o.top
    exact ⟨o.wf, a, [r], b, by rw [h1]; simp, h2, h3, .inr ⟨r, rfl, h4⟩⟩
  · exact ⟨h.1.1, kidsOf s.dom 0, [], [], by simp, ⟨kidsOf s.dom 0, [], [], by simp, h.1.2, by simp, .inl rfl⟩, by simp, .inl rfl⟩
  · exact ⟨h.1.1, kidsOf s.dom 0, [], [], by simp, h.1.2, by simp, .inl rfl⟩

theorem comments_of {l : List Nat} (h : ∀ x ∈ l, Cm d x) : Comments (l.map (view d f)) := by
  intro n hn
  obtain ⟨y, hy, rfl⟩ := List.mem_map.mp hn
  obtain ⟨t, ht⟩ := h y hy
  exact ⟨t, by rw [view_data, ht]; rfl⟩

theorem view_eq : ∃ ks, view d f x = .mk (((kindOf d x).map data).getD .other) ks := by cases f <;> exact ⟨_, rfl⟩

theorem view_leaf (w : Wf d) {k : Kind} (hk : kindOf d x = some k) (h0 : x ≠ 0) (hk' : ∀ ns t a, k ≠ .elem ns t a) : view d f x = .mk (data k) [] := by
  have : kidsOf d x = [] := by
    by_contra hne
    obtain ⟨z, hz⟩ := List.exists_mem_of_ne_nil _ hne
    rcases w.box z x ((w.kid z x).mp hz) with h | ⟨ns, t, a, h⟩
    · exact h0 h
    · rw [hk] at h; cases h; exact hk' _ _ _ rfl
  cases f with
  | zero => rw [view, hk]; rfl
  | succ f => rw [view, hk, this]; rfl

theorem is_document (h : Heads d) : IsDocument (document d) := by
  obtain ⟨w, a, e, b, h1, h2, h3, h4⟩ := h
  refine ⟨?_, fun n hn => ?_, ?_⟩
  · show (view _ _ _).data = _
    rw [view_data, w.doc]; rfl
  · obtain ⟨g, y, p, rfl, hp⟩ := mem_below w _ _ n hn
    obtain ⟨k, hk⟩ := kind_of_lt (lt_of_parent hp)
    have hy : y ≠ 0 := by rintro rfl; rw [w.top] at hp; cases hp
    have hkd : k ≠ .document := by rintro rfl; exact hy (w.only y hk)
    rw [view_data, hk]
    refine ⟨?_, fun hne => ?_, fun t ht => ?_⟩
    · cases k <;> simp_all [data]
    · by_cases hel : ∃ ns t a, k = .elem ns t a
      · obtain ⟨ns, t, a, rfl⟩ := hel
        exact ⟨_, _, _, _, rfl⟩
      · rw [view_leaf w hk hy fun ns t a e => hel ⟨ns, t, a, e⟩] at hne
        exact absurd rfl hne
    · cases k <;> simp_all [data]
      exact w.text y _ hk
  · obtain ⟨n, hn⟩ : ∃ n, d.length = n + 1 := ⟨d.length - 1, by have := w.pos; omega⟩
    obtain ⟨c1, t, c2, rfl, p1, p2, p3⟩ := h2
    refine ⟨c1.map (view d n), t.map (view d n), c2.map (view d n), e.map (view d n), b.map (view d n), ?_, comments_of p1, comments_of p2, comments_of h3, ?_, ?_⟩
    · unfold document
      rw [hn, view]
      show (kidsOf d 0).map _ = _
      rw [h1]; simp
    · rcases p3 with rfl | ⟨y, rfl, a, b', c, hy⟩
      · exact .inl rfl
      · refine .inr ⟨a, ?_⟩
        rw [List.map_singleton, view_leaf w hy (by rintro rfl; rw [w.doc] at hy; cases hy) (by simp)]
        rfl
    · rcases h4 with rfl | ⟨r, rfl, a, hr⟩
      · exact .inl rfl
      · obtain ⟨ks, hv⟩ := view_eq (d := d) (f := n) (x := r)
        refine .inr ⟨a.map attr, ks, ?_⟩
        rw [List.map_singleton, hv, hr]
        rfl

theorem shape_holds (tbl : List Nat → Bool) : Holds tbl (fun _ => True) (I A B H) where
  init := i_init closed
  emit s t _ h := i_emit closed h (by cases t <;> trivial)

end Verif.Proof.HtmlTree.Forest
