import Verif.Proof.SelectorTree
/-! Queries. -/
namespace Verif.Proof.Selector
open Verif.Model.Selector Verif.Model.Tree Verif.Spec Verif.Spec.Forest Verif.Spec.Selector Verif.Proof.Tree

section
variable {t : T Node} {f g : Forest Node} {l : List Nat}

theorem upward_self (f : Forest Node) (x : Nat) : Upward f x x := Or.inl rfl

theorem upward_parent (R : Rep t f g l) {x z : Nat} (hx : x ∈ ids f) (h : t.parent x ≠ 0) : Upward f z x ↔ z = x ∨ Upward f z (t.parent x) := by
  unfold Upward
  rw [above_iff R hx z]
  simp [h]

theorem upward_top (R : Rep t f g l) {x z : Nat} (hx : x ∈ ids f) (h : t.parent x = 0) : Upward f z x ↔ z = x := by
  unfold Upward
  rw [above_iff R hx z]
  simp [h]

/-- Descendants come later in document order. -/
theorem descendants_after (R : Rep t f g l) (z : Nat) : ∀ (n x : Nat), (ids f).idxOf x < n → x ∈ descendants f z → (ids f).idxOf z < (ids f).idxOf x := by
  intro n
  induction n with
  | zero => intro x h; omega
  | succ n ih =>
    intro x h hx
    have hxf := descendants_sub f z x hx
    obtain ⟨hp, w⟩ := (above_iff R hxf z).mp hx
    obtain ⟨_, h2⟩ := parent_before R hxf hp
    rcases w with rfl | w
    · exact h2
    · have := ih _ (by omega) w
      omega

theorem descendants_asymm (R : Rep t f g l) {x y : Nat} (h : x ∈ descendants f y) : ¬ y ∈ descendants f x := by
  intro h'
  have h1 := descendants_after R y _ x (Nat.lt_succ_self _) h
  have h2 := descendants_after R x _ y (Nat.lt_succ_self _) h'
  omega

theorem findDoc_null {n : Nat} : findDoc t n nullIt = some (0, 0) := by cases n <;> simp [findDoc]
theorem findRoot_null {n : Nat} : findRoot t n nullIt = some nullIt := by cases n <;> simp [findRoot]

theorem findDoc_spec (R : Rep t f g l) : ∀ (fuel x : Nat), x ∈ ids f → (ids f).idxOf x < fuel →
    (∃ ty mo, InDoc f x ty mo ∧ findDoc t fuel (mkIt t x) = some (ty, mo)) ∨
    ((∀ z, Upward f z x → ¬ Document f z) ∧ findDoc t fuel (mkIt t x) = some (0, 0)) := by
  intro fuel
  induction fuel with
  | zero => intro x _ h; omega
  | succ n ih =>
    intro x hx hf
    obtain ⟨nd, hv, hd⟩ := deref_spec R hx
    rw [findDoc, if_neg (mkIt_ne (ne_zero R hx)), hd]
    have go : (∀ ty mo, nd ≠ .document ty mo) →
        (∃ ty mo, InDoc f x ty mo ∧ (((mkIt t x).up t).bind fun q => findDoc t n q) = some (ty, mo)) ∨
        ((∀ z, Upward f z x → ¬ Document f z) ∧ (((mkIt t x).up t).bind fun q => findDoc t n q) = some (0, 0)) := by
      intro hne
      have hnd : ¬ Document f x := by
        rintro ⟨ty, mo, e⟩
        rw [hv] at e
        exact hne ty mo (Option.some.inj e)
      rw [up_spec R hx, Option.bind_some]
      by_cases hp : t.parent x = 0
      · right
        rw [if_pos hp, findDoc_null]
        refine ⟨?_, rfl⟩
        intro z hz
        rw [(upward_top R hx hp).mp hz]; exact hnd
      · rw [if_neg hp]
        obtain ⟨h1, h2⟩ := parent_before R hx hp
        rcases ih _ h1 (by omega) with ⟨ty, mo, ⟨d, ⟨a, b, c⟩, e⟩, w⟩ | ⟨a, w⟩
        · left
          refine ⟨ty, mo, ⟨d, ⟨(upward_parent R hx hp).mpr (Or.inr a), b, ?_⟩, e⟩, w⟩
          intro z hz hz'
          rcases (upward_parent R hx hp).mp hz with rfl | hz
          · exact absurd hz' hnd
          · exact c z hz hz'
        · right
          refine ⟨?_, w⟩
          intro z hz
          rcases (upward_parent R hx hp).mp hz with rfl | hz
          · exact hnd
          · exact a z hz
    cases nd with
    | document ty mo =>
      left
      exact ⟨ty, mo, ⟨x, ⟨upward_self f x, ⟨ty, mo, hv⟩, fun z hz _ => hz⟩, hv⟩, rfl⟩
    | element a b c d => exact go (by simp)
    | other => exact go (by simp)

theorem isRoot_iff {f : Forest Node} {x : Nat} {nd : Node} (h : valueAt f x = some nd) : nd.isRoot = true ↔ HtmlElement f x := by
  unfold HtmlElement
  rw [h]
  have e1 : txt "http://www.w3.org/1999/xhtml" = htmlNs := by decide +kernel
  have e2 : txt "html" = htmlName := by decide +kernel
  rw [e1, e2]
  cases nd <;> simp [Node.isRoot]

theorem findRoot_spec (R : Rep t f g l) : ∀ (fuel x : Nat), x ∈ ids f → (ids f).idxOf x < fuel →
    (∃ r, r ∈ ids f ∧ Nearest f (HtmlElement f) x r ∧ findRoot t fuel (mkIt t x) = some (mkIt t r)) ∨
    ((∀ z, Upward f z x → ¬ HtmlElement f z) ∧ findRoot t fuel (mkIt t x) = some nullIt) := by
  intro fuel
  induction fuel with
  | zero => intro x _ h; omega
  | succ n ih =>
    intro x hx hf
    obtain ⟨nd, hv, hd⟩ := deref_spec R hx
    rw [findRoot, if_neg (mkIt_ne (ne_zero R hx)), hd]
    dsimp only
    by_cases hr : nd.isRoot = true
    · left
      rw [if_pos hr]
      exact ⟨x, hx, ⟨upward_self f x, (isRoot_iff hv).mp hr, fun z hz _ => hz⟩, rfl⟩
    · have hnd : ¬ HtmlElement f x := fun w => hr ((isRoot_iff hv).mpr w)
      rw [if_neg hr, up_spec R hx, Option.bind_some]
      by_cases hp : t.parent x = 0
      · right
        rw [if_pos hp, findRoot_null]
        refine ⟨?_, rfl⟩
        intro z hz
        rw [(upward_top R hx hp).mp hz]; exact hnd
      · rw [if_neg hp]
        obtain ⟨h1, h2⟩ := parent_before R hx hp
        rcases ih _ h1 (by omega) with ⟨d, hd, ⟨a, b, c⟩, w⟩ | ⟨a, w⟩
        · left
          refine ⟨d, hd, ⟨(upward_parent R hx hp).mpr (Or.inr a), b, ?_⟩, w⟩
          intro z hz hz'
          rcases (upward_parent R hx hp).mp hz with rfl | hz
          · exact absurd hz' hnd
          · exact c z hz hz'
        · right
          refine ⟨?_, w⟩
          intro z hz
          rcases (upward_parent R hx hp).mp hz with rfl | hz
          · exact hnd
          · exact a z hz

theorem inScope_spec (R : Rep t f g l) {x y : Nat} (hx : x ∈ ids f) (hy : y ∈ ids f) :
    Ans (inScope t (mkIt t x) (mkIt t y)) (y ∈ descendants f x) := by
  rw [inScope, if_neg (mkIt_ne (ne_zero R hx))]
  apply (walkAbove_spec R (Q := fun z => z = x) (h := fun r => some (decide (r = mkIt t x))) ?_ hy).congr
  · simp
  · intro z _
    refine ⟨_, rfl, ?_⟩
    simp only [decide_eq_true_eq]
    exact ⟨mkIt_inj, fun w => by rw [w]⟩

theorem pick_spec (R : Rep t f g l) {c : Ctx} {sel : List (List Item)} {x : Nat} (hx : x ∈ ids f) {Q : Nat → Prop} :
    ∀ {ns : List Nat}, (∀ y ∈ ns, y ∈ ids f) → (∀ y ∈ ns, y ∈ descendants f x → Ans (matchList t c sel (mkIt t y)) (Q y)) →
      ∃ ys : List Nat, pick t c sel (mkIt t x) (ns.map (mkIt t)) = some (ys.map (mkIt t)) ∧ ys.Sublist ns ∧ ∀ y, y ∈ ys ↔ y ∈ ns ∧ y ∈ descendants f x ∧ Q y := by
  intro ns
  induction ns with
  | nil => intro _ _; exact ⟨[], rfl, List.Sublist.refl _, by simp⟩
  | cons a ns ih =>
    intro hn hm
    obtain ⟨ys, e, hs, hy⟩ := ih (fun y w => hn y (by simp [w])) (fun y w => hm y (by simp [w]))
    rw [List.map_cons, pick]
    obtain ⟨b, hb, hi⟩ := inScope_spec R hx (hn a (by simp))
    rw [hb, Option.bind_some]
    by_cases hd : a ∈ descendants f x
    · rw [if_pos (hi.mpr hd)]
      obtain ⟨m, hmm, hmi⟩ := hm a (by simp) hd
      rw [hmm, Option.bind_some, e, Option.map_some]
      cases m with
      | true =>
        refine ⟨a :: ys, by simp, hs.cons_cons a, ?_⟩
        intro y
        rw [List.mem_cons, hy y, List.mem_cons]
        constructor
        · rintro (rfl | w)
          · exact ⟨Or.inl rfl, hd, hmi.mp rfl⟩
          · exact ⟨Or.inr w.1, w.2⟩
        · rintro ⟨rfl | w, w'⟩
          · exact Or.inl rfl
          · exact Or.inr ⟨w, w'⟩
      | false =>
        refine ⟨ys, by simp, hs.cons a, ?_⟩
        intro y
        rw [hy y, List.mem_cons]
        constructor
        · rintro ⟨w, w'⟩; exact ⟨Or.inr w, w'⟩
        · rintro ⟨rfl | w, w'⟩
          · have := hmi.mpr w'.2; simp at this
          · exact ⟨w, w'⟩
    · have hb' : b = false := by
        cases b
        · rfl
        · exact absurd (hi.mp rfl) hd
      rw [hb', if_neg (by simp), Option.bind_some, e, Option.map_some]
      refine ⟨ys, by simp, hs.cons a, ?_⟩
      intro y
      rw [hy y, List.mem_cons]
      constructor
      · rintro ⟨w, w'⟩; exact ⟨Or.inr w, w'⟩
      · rintro ⟨rfl | w, w'⟩
        · exact absurd w'.1 hd
        · exact ⟨w, w'⟩

theorem pick_none (R : Rep t f g l) {c : Ctx} {sel : List (List Item)} {x : Nat} (hx : x ∈ ids f) :
    ∀ {ns : List Nat}, (∀ y ∈ ns, y ∈ ids f) → (∃ y ∈ ns, y ∈ descendants f x ∧ matchList t c sel (mkIt t y) = none) →
      pick t c sel (mkIt t x) (ns.map (mkIt t)) = none := by
  intro ns
  induction ns with
  | nil => rintro _ ⟨y, h, _⟩; simp at h
  | cons a ns ih =>
    rintro hn ⟨y, hy, hd, hm⟩
    rw [List.map_cons, pick]
    obtain ⟨b, hb, hi⟩ := inScope_spec R hx (hn a (by simp))
    rw [hb, Option.bind_some]
    rcases List.mem_cons.mp hy with rfl | hy
    · rw [if_pos (hi.mpr hd), hm]; rfl
    · rw [ih (fun y w => hn y (by simp [w])) ⟨y, hy, hd, hm⟩]
      cases (if b = true then matchList t c sel (mkIt t a) else some false) <;> rfl

theorem find_inner {f : Forest Node} (nd : (ids f).Nodup) {r v k x} (h : find f r = some (v, k)) (hx : x ∈ ids k) : find f x = find k x := by
  induction f with
  | nil => simp [find] at h
  | cons i w c s hc hs =>
    obtain ⟨a, b, ndc, nds, e⟩ := nodup_cons nd
    have hsub : ∀ {f : Forest Node}, find f r = some (v, k) → x ∈ ids f := by
      intro f h
      have : x ∈ descendants f r := by rw [descendants, h]; exact hx
      exact descendants_sub f r x this
    rw [find] at h ⊢
    split at h
    · simp only [Option.some.injEq, Prod.mk.injEq] at h
      rw [if_neg (by rintro rfl; rw [← h.2] at hx; exact a hx), h.2]
      obtain ⟨v', k', e'⟩ := find_some hx
      rw [e']; rfl
    · rw [Option.or_eq_some_iff] at h
      rcases h with h | ⟨hn, h⟩
      · have hxc := hsub h
        rw [if_neg (by rintro rfl; exact a hxc), hc ndc h]
        obtain ⟨v', k', e'⟩ := find_some hx
        rw [e']; rfl
      · have hxs := hsub h
        rw [if_neg (by rintro rfl; exact b hxs), find_none (fun w => e x w hxs), hs nds h]
        rfl

theorem descendants_sublist (f : Forest Node) (x : Nat) : (descendants f x).Sublist (ids f) := by
  induction f with
  | nil => simp [descendants, find]
  | cons i v k r hk hr =>
    rw [descendants_cons, ids]
    split
    · exact (List.sublist_append_left _ _).cons i
    · split
      · exact (hk.trans (List.sublist_append_left _ _)).cons i
      · exact (hr.trans (List.sublist_append_right _ _)).cons i

theorem upward_sublist {f : Forest Node} (nd : (ids f).Nodup) {r x : Nat} (h : Upward f r x) :
    (descendants f x).Sublist (r :: descendants f r) := by
  rcases h with rfl | h
  · exact (List.Sublist.refl _).cons r
  · unfold descendants at h
    split at h
    · simp at h
    · rename_i e he
      have := descendants_sublist e.2 x
      have h2 := find_inner nd (v := e.1) (k := e.2) he h
      have h3 : descendants f x = descendants e.2 x := by unfold descendants; rw [h2]
      have h4 : descendants f r = ids e.2 := by unfold descendants; rw [he]
      rw [h3, h4]
      exact this.cons r

theorem filter_sublist {S L : List Nat} (h : S.Sublist L) (nd : L.Nodup) : L.filter (fun y => decide (y ∈ S)) = S := by
  induction h with
  | slnil => rfl
  | cons a h ih =>
    rw [List.nodup_cons] at nd
    rw [List.filter_cons_of_neg (by simpa using fun w => nd.1 (h.subset w)), ih nd.2]
  | cons_cons a h ih =>
    rw [List.nodup_cons] at nd
    rw [List.filter_cons_of_pos (by simp)]
    congr 1
    rw [← ih nd.2] 
    apply List.filter_congr
    intro y hy
    have : y ≠ a := by rintro rfl; exact nd.1 hy
    rw [ih nd.2]
    simp [this]

theorem incr_spec (R : Rep t f g l) {x : Nat} (hx : x ∈ ids f) : (mkIt t x).incr t = some ⟨t.parent x, t.next x⟩ ∧ t.next x ≠ x := by
  have hN := R.isNode hx
  have C := R.chain _ hN.1
  have nd := children_nodup R.ndf (t.parent x)
  obtain ⟨A, B, e⟩ := List.append_of_mem hN.2
  constructor
  · unfold It.incr mkIt T.rd
    dsimp only
    rw [if_neg (ne_zero R hx), if_pos (R.f_lt hx).2]; rfl
  · rw [C.nx A x B e]
    rw [e] at nd
    cases B with
    | nil => exact (ne_zero R hx).symm
    | cons b B =>
      rw [List.nodup_append, List.nodup_cons] at nd
      simp only [List.headD_cons]
      rintro rfl
      exact nd.2.1.1 (by simp)

theorem queryAll_start (R : Rep t f .nil l) {x r : Nat} (hx : x ∈ ids f) (S : StartsAt f x r) {sel : List (List Item)} {d : Nat × Nat}
    (hd : findDoc t t.len (mkIt t r) = some d) :
    r ∈ ids f ∧ Upward f r x ∧
    queryAll t sel (mkIt t x) = pick t ⟨d.1, d.2, fun _ => none⟩ sel (mkIt t x) ((r :: descendants f r).map (mkIt t)) := by
  obtain ⟨nd, hv, hder⟩ := deref_spec R hx
  have hlt := idx_lt R hx
  have hroot : r ∈ ids f ∧ Upward f r x ∧ (if nd.isDocument = true then some (mkIt t x) else findRoot t t.len (mkIt t x)) = some (mkIt t r) := by
    rcases S with ⟨⟨ty, mo, h⟩, rfl⟩ | ⟨h, h'⟩
    · rw [hv] at h
      rw [Option.some.inj h]
      exact ⟨hx, upward_self f r, rfl⟩
    · have : ¬ nd.isDocument = true := by
        intro w
        cases nd with
        | document ty mo => exact h ⟨ty, mo, hv⟩
        | element a b c d => simp [Node.isDocument] at w
        | other => simp [Node.isDocument] at w
      rw [if_neg this]
      rcases findRoot_spec R t.len x hx hlt with ⟨r', hr', hn, e⟩ | ⟨hn, _⟩
      · have : r' = r := by
          rcases h'.2.2 r' hn.1 hn.2.1 with w | w
          · exact w
          · rcases hn.2.2 r h'.1 h'.2.1 with w' | w'
            · exact w'.symm
            · exact absurd w' (descendants_asymm R w)
        rw [e, this]
        exact ⟨this ▸ hr', h'.1, rfl⟩
      · exact absurd h'.2.1 (hn r h'.1)
  obtain ⟨hr, hu, hroot⟩ := hroot
  refine ⟨hr, hu, ?_⟩
  obtain ⟨v, k, hf⟩ := find_some hr
  have S := R.src hf (R.isNode hr)
  have hvis := visit_stack t.len _ S.hung S.hung.size_le
  have h0 : (roots (Forest.cons r v k .nil)).map (mkIt t) = [mkIt t r] := rfl
  have h1 : ids (Forest.cons r v k .nil) = r :: descendants f r := by
    rw [ids, descendants, hf]; simp [ids]
  rw [h0, h1] at hvis
  obtain ⟨hi, hne⟩ := incr_spec R hr
  obtain ⟨hi', _⟩ := incr_spec R hx
  rw [queryAll, hder, Option.bind_some, hroot, Option.bind_some, hi, Option.bind_some, matchSelector, if_neg (mkIt_ne (ne_zero R hx)), hi',
    Option.bind_some, hd, Option.bind_some]
  obtain ⟨n, hn⟩ : ∃ n, t.len = n + 1 := ⟨t.len - 1, by have := (R.f_lt hx).2; omega⟩
  have hne' : mkIt t r ≠ ⟨t.parent r, t.next r⟩ := by
    intro w
    exact hne (congrArg It.idx w).symm
  have hm : ∀ n, matchTrees t ⟨d.1, d.2, fun _ => none⟩ sel (mkIt t x) ⟨t.parent r, t.next r⟩ n ⟨t.parent r, t.next r⟩ = some [] := by
    intro n; cases n <;> simp [matchTrees]
  rw [show matchTrees t ⟨d.1, d.2, fun _ => none⟩ sel (mkIt t x) ⟨t.parent r, t.next r⟩ t.len (mkIt t r) =
    matchTrees t ⟨d.1, d.2, fun _ => none⟩ sel (mkIt t x) ⟨t.parent r, t.next r⟩ (n + 1) (mkIt t r) from by rw [hn],
    matchTrees, if_neg hne', hvis, Option.bind_some, hi]
  cases hpk : pick t ⟨d.1, d.2, fun _ => none⟩ sel (mkIt t x) ((r :: descendants f r).map (mkIt t)) with
  | none => rfl
  | some ys => simp [hm]

theorem queryAll_spec (R : Rep t f .nil l) {x r : Nat} (hx : x ∈ ids f) (S : StartsAt f x r) {sel : List (List Item)} {d : Nat × Nat}
    (hd : findDoc t t.len (mkIt t r) = some d) {Q : Nat → Prop}
    (hq : ∀ y ∈ descendants f x, Ans (matchList t ⟨d.1, d.2, fun _ => none⟩ sel (mkIt t y)) (Q y)) :
    ∃ ys, queryAll t sel (mkIt t x) = some (ys.map (mkIt t)) ∧ Answer f x Q ys := by
  obtain ⟨hr, hu, e⟩ := queryAll_start R hx S (sel := sel) hd
  have hin : ∀ y ∈ r :: descendants f r, y ∈ ids f := by
    intro y hy
    rcases List.mem_cons.mp hy with rfl | hy
    · exact hr
    · exact descendants_sub f r y hy
  obtain ⟨ys, e', hs, hm⟩ := pick_spec R hx (c := ⟨d.1, d.2, fun _ => none⟩) (sel := sel) (Q := Q) hin (fun y _ hy => hq y hy)
  have hsub := upward_sublist R.ndf hu
  have hnd : (r :: descendants f r).Nodup := by
    obtain ⟨v, k, hf⟩ := find_some hr
    have := (R.src hf (R.isNode hr)).hung.nd
    have h1 : ids (Forest.cons r v k .nil) = r :: descendants f r := by
      rw [ids, descendants, hf]; simp [ids]
    rwa [h1] at this
  refine ⟨ys, by rw [e, e'], ?_, ?_⟩
  · have h1 := hs.filter (fun y => decide (y ∈ descendants f x))
    rw [filter_sublist hsub hnd, List.filter_eq_self.mpr] at h1
    · exact h1
    · intro y hy; simpa using ((hm y).mp hy).2.1
  · intro y
    rw [hm y]
    exact ⟨fun w => w.2, fun w => ⟨hsub.subset w.1, w⟩⟩

theorem queryAll_none (R : Rep t f .nil l) {x r : Nat} (hx : x ∈ ids f) (S : StartsAt f x r) {sel : List (List Item)} {d : Nat × Nat}
    (hd : findDoc t t.len (mkIt t r) = some d) {y : Nat} (hy : y ∈ descendants f x)
    (hq : matchList t ⟨d.1, d.2, fun _ => none⟩ sel (mkIt t y) = none) : queryAll t sel (mkIt t x) = none := by
  obtain ⟨hr, hu, e⟩ := queryAll_start R hx S (sel := sel) hd
  rw [e]
  apply pick_none R hx
  · intro y hy
    rcases List.mem_cons.mp hy with rfl | hy
    · exact hr
    · exact descendants_sub f r y hy
  · exact ⟨y, (upward_sublist R.ndf hu).subset hy, hy, hq⟩

theorem queryAll_lost (R : Rep t f .nil l) {x : Nat} (hx : x ∈ ids f) (hd : ¬ Document f x) (hh : ∀ z, Upward f z x → ¬ HtmlElement f z)
    (sel : List (List Item)) : queryAll t sel (mkIt t x) = none := by
  obtain ⟨nd, hv, hder⟩ := deref_spec R hx
  have : ¬ nd.isDocument = true := by
    intro w
    cases nd with
    | document ty mo => exact hd ⟨ty, mo, hv⟩
    | element a b c d => simp [Node.isDocument] at w
    | other => simp [Node.isDocument] at w
  rw [queryAll, hder, Option.bind_some, if_neg this]
  rcases findRoot_spec R t.len x hx (idx_lt R hx) with ⟨r', _, hn, _⟩ | ⟨_, e⟩
  · exact absurd hn.2.1 (hh r' hn.1)
  · rw [e]; rfl

theorem findDoc_known (R : Rep t f g l) {r ty mo : Nat} (hr : r ∈ ids f) (h : InDoc f r ty mo) : findDoc t t.len (mkIt t r) = some (ty, mo) := by
  obtain ⟨d, hn, hv⟩ := h
  rcases findDoc_spec R t.len r hr (idx_lt R hr) with ⟨ty', mo', ⟨d', hn', hv'⟩, e⟩ | ⟨w, _⟩
  · have : d' = d := by
      rcases hn.2.2 d' hn'.1 hn'.2.1 with w | w
      · exact w
      · rcases hn'.2.2 d hn.1 hn.2.1 with w' | w'
        · exact w'.symm
        · exact absurd w' (descendants_asymm R w)
    rw [this, hv] at hv'
    simp only [Option.some.injEq, Node.document.injEq] at hv'
    rw [e, hv'.1, hv'.2]
  · exact absurd ⟨ty, mo, hv⟩ (w d hn.1)

end
end Verif.Proof.Selector
