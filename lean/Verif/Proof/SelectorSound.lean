import Verif.Proof.SelectorParse
/-! What the selector parser accepts. -/
namespace Verif.Proof.Selector
open Verif.Model.CssTok (Token)
open Verif.Model.CssParse (Prim)
open Verif.Model.Selector Verif.Spec.Selector Verif.Spec.Infra
variable {uris : Uris}

theorem skipWs_split (s : List Prim) : ∃ w, Ws w ∧ s = w ++ skipWs s := by
  induction s using skipWs.induct with
  | case1 s ih =>
    obtain ⟨w, hw, e⟩ := ih
    refine ⟨.tok .whitespace :: w, ?_, ?_⟩
    · intro p hp
      rcases List.mem_cons.mp hp with rfl | hp
      · rfl
      · exact hw p hp
    · rw [skipWs, List.cons_append, ← e]
  | case2 s h =>
    refine ⟨[], by simp [Ws], ?_⟩
    rw [List.nil_append, skipWs.eq_def]
    split
    · rename_i s'; exact absurd rfl (h s')
    · rfl

theorem startsWs_split {s : List Prim} (h : startsWs s = true) : ∃ w, Ws w ∧ w ≠ [] ∧ s = w ++ skipWs s := by
  obtain ⟨w, hw, e⟩ := skipWs_split s
  refine ⟨w, hw, ?_, e⟩
  rintro rfl
  unfold startsWs at h
  split at h
  · rename_i t
    rw [skipWs, List.nil_append] at e
    have h1 := congrArg List.length e
    obtain ⟨w', _, e'⟩ := skipWs_split t
    have h2 := congrArg List.length e'
    simp only [List.length_append, List.length_cons] at h1 h2
    omega
  · simp at h

theorem nsPrefix_sound {s p r} (h : nsPrefix uris s = some (p, r)) : ∃ s1, s = s1 ++ r ∧ Prefix (lang uris True) s1 p := by
  unfold nsPrefix at h
  split at h
  · rename_i c t ht
    split at h
    · rename_i hc
      subst hc
      by_cases hp : (uris (prefixName s).1).isSome = true ∨ (prefixName s).1 = [0x2A] ∨ (prefixName s).1 = []
      · rw [if_pos hp] at h
        simp only [Option.some.injEq, Prod.mk.injEq] at h
        obtain ⟨h1, rfl⟩ := h
        unfold prefixName at h1 ht hp
        split at h1
        · rename_i v q
          simp only at h1 ht hp
          subst h1 ht
          refine ⟨[ident v, delim 0x7C], rfl, ?_⟩
          rcases hp with hp | hp | hp
          · exact .name v hp
          · exact .odd v trivial (Or.inl hp)
          · exact .odd v trivial (Or.inr hp)
        · rename_i c' q
          split at h1
          · rename_i hc
            subst hc
            simp only [if_true] at h1 ht
            subst h1 ht
            exact ⟨[delim 0x2A, delim 0x7C], rfl, .any⟩
          · rename_i hc
            simp only [if_neg hc] at h1 ht
            subst h1
            refine ⟨[delim 0x7C], ?_, .none⟩
            rw [ht]; rfl
        · simp only at h1 ht
          subst h1
          exact ⟨[delim 0x7C], by rw [ht]; rfl, .none⟩
      · rw [if_neg hp] at h; simp at h
    · simp at h
  · simp at h

theorem identAt_sound {pre s o n r} (h : identAt pre s = some ((o, n), r)) : s = ident n :: r ∧ o = pre := by
  unfold identAt at h
  split at h
  · simp only [Option.some.injEq, Prod.mk.injEq] at h
    obtain ⟨⟨rfl, rfl⟩, rfl⟩ := h
    exact ⟨rfl, rfl⟩
  · simp at h

theorem wqName_sound {s o n r} (h : wqName uris s = some ((o, n), r)) : ∃ s1, s = s1 ++ ident n :: r ∧ OptPrefix (lang uris True) s1 o := by
  unfold wqName at h
  split at h
  · rename_i p t ht
    split at h
    · obtain ⟨s1, rfl, hp⟩ := nsPrefix_sound ht
      obtain ⟨rfl, rfl⟩ := identAt_sound h
      exact ⟨s1, rfl, .yes hp⟩
    · obtain ⟨rfl, rfl⟩ := identAt_sound h
      exact ⟨[], rfl, .no⟩
  · obtain ⟨rfl, rfl⟩ := identAt_sound h
    exact ⟨[], rfl, .no⟩

theorem attrMatcher_sound {s k r} (h : attrMatcher s = some (k, r)) : ∃ m, s = m ++ r ∧ Matcher m k := by
  unfold attrMatcher at h
  split at h
  · rename_i c t
    split at h
    · rename_i hc
      simp only [Option.some.injEq, Prod.mk.injEq] at h
      obtain ⟨rfl, rfl⟩ := h
      subst hc
      exact ⟨_, rfl, .eq⟩
    · split at h
      · rename_i hc
        split at h
        · rename_i d t'
          split at h
          · rename_i hd
            simp only [Option.some.injEq, Prod.mk.injEq] at h
            obtain ⟨rfl, rfl⟩ := h
            subst hd
            exact ⟨[delim c, delim 0x3D], rfl, .op c (by simpa using hc)⟩
          · simp at h
        · simp at h
      · simp at h
  · simp at h

theorem attrModifier_sound {s : List Prim} {i : Nat} (h : attrModifier s = i) (hi : i ≠ 0) : ∃ q r, s = q :: r ∧ Modifier q i := by
  unfold attrModifier at h
  split at h
  · rename_i v r
    split at h
    · rename_i hv
      subst h
      rcases hv with rfl | rfl
      · exact ⟨_, _, rfl, .i 0x69 (by simp)⟩
      · exact ⟨_, _, rfl, .i 0x49 (by simp)⟩
    · split at h
      · rename_i hv
        subst h
        rcases hv with rfl | rfl
        · exact ⟨_, _, rfl, .s 0x73 (by simp)⟩
        · exact ⟨_, _, rfl, .s 0x53 (by simp)⟩
      · exact absurd h.symm hi
  · exact absurd h.symm hi

theorem attrValue_sound {s v i} (h : attrValue s = some (v, i)) : ∃ p r, s = p :: r ∧ Value p v ∧ attrModifier (skipWs r) = i := by
  unfold attrValue at h
  split at h
  · rename_i u r
    simp only [Option.some.injEq, Prod.mk.injEq] at h
    obtain ⟨rfl, h⟩ := h
    exact ⟨_, _, rfl, .string _, h⟩
  · rename_i u r
    simp only [Option.some.injEq, Prod.mk.injEq] at h
    obtain ⟨rfl, h⟩ := h
    exact ⟨_, _, rfl, .ident _, h⟩
  · simp at h

theorem attrBody_sound {vs a} (h : attrBody uris vs = some a) : AttrBody (lang uris True) vs a := by
  unfold attrBody at h
  obtain ⟨w, hw, ew⟩ := skipWs_split vs
  split at h
  · simp at h
  · rename_i o n r hq
    obtain ⟨s1, e1, ho⟩ := wqName_sound hq
    obtain ⟨w', hw', ew'⟩ := skipWs_split r
    split at h
    · rename_i k r' hm
      obtain ⟨m, em, hm⟩ := attrMatcher_sound hm
      obtain ⟨w'', hw'', ew''⟩ := skipWs_split r'
      split at h
      · rename_i v i hv
        obtain ⟨p, q, ep, hp, hi⟩ := attrValue_sound hv
        obtain ⟨w₃, hw₃, ew₃⟩ := skipWs_split q
        simp only [Option.some.injEq] at h
        subst h
        by_cases hi0 : i = 0
        · subst hi0
          have := AttrBody.value (j := skipWs q) (n := n) hw ho hw' hm hw'' hp hw₃ (Or.inr trivial)
          have e : vs = w ++ s1 ++ [ident n] ++ w' ++ m ++ w'' ++ [p] ++ w₃ ++ skipWs q := by
            rw [ew, e1, ew', em, ew'', ep]
            conv_lhs => rw [ew₃]
            simp
          rw [e]; exact this
        · obtain ⟨x, t, ex, hx⟩ := attrModifier_sound hi hi0
          obtain ⟨w₄, hw₄, ew₄⟩ := skipWs_split t
          have := AttrBody.modified (j := skipWs t) (n := n) hw ho hw' hm hw'' hp hw₃ hx hw₄ (Or.inr trivial)
          have e : vs = w ++ s1 ++ [ident n] ++ w' ++ m ++ w'' ++ [p] ++ w₃ ++ [x] ++ w₄ ++ skipWs t := by
            rw [ew, e1, ew', em, ew'', ep]
            conv_lhs => rw [ew₃, ex, ew₄]
            simp
          rw [e]; exact this
      · simp at h
    · split at h
      · rename_i hemp
        simp only [Option.some.injEq] at h
        subst h
        have hemp : skipWs r = [] := by simpa using hemp
        have := AttrBody.name (n := n) hw ho hw'
        have e : vs = w ++ s1 ++ [ident n] ++ w' := by
          rw [hemp, List.append_nil] at ew'
          rw [ew, e1, ew']; simp
        rw [e]; exact this
      · simp at h

theorem pseudoClass_sound {s x r} (h : pseudoClass s = some (x, r)) : ∃ s1, s = s1 ++ r ∧ PseudoClass s1 x := by
  unfold pseudoClass at h
  split at h
  · rename_i n t
    split at h
    · simp at h
    · rename_i hn
      simp only [Option.some.injEq, Prod.mk.injEq] at h
      obtain ⟨rfl, rfl⟩ := h
      exact ⟨[colon, ident n], rfl, .name n (fun w => hn ((legacy_iff n).mpr w))⟩
  · rename_i n a t
    simp only [Option.some.injEq, Prod.mk.injEq] at h
    obtain ⟨rfl, rfl⟩ := h
    exact ⟨[colon, .fn n a], rfl, .fn n a⟩
  · simp at h

theorem subclass_sound {s x r} (h : subclass uris s = some (x, r)) : ∃ s1, s = s1 ++ r ∧ SubSel (lang uris True) s1 x := by
  unfold subclass at h
  cases h1 : idSel s with
  | some q =>
    rw [h1, Option.some_or, Option.some.injEq] at h
    subst h
    unfold idSel at h1
    split at h1
    · rename_i v b t
      simp only [Option.some.injEq, Prod.mk.injEq] at h1
      obtain ⟨rfl, rfl⟩ := h1
      exact ⟨[.tok (.hash v b)], rfl, .id v b (Or.inr trivial)⟩
    · simp at h1
  | none =>
    rw [h1, Option.none_or] at h
    cases h2 : classSel s with
    | some q =>
      rw [h2, Option.some_or, Option.some.injEq] at h
      subst h
      unfold classSel at h2
      split at h2
      · rename_i c n t
        split at h2
        · rename_i hc
          simp only [Option.some.injEq, Prod.mk.injEq] at h2
          obtain ⟨rfl, rfl⟩ := h2
          subst hc
          exact ⟨[delim 0x2E, ident n], rfl, .cls n⟩
        · simp at h2
      · simp at h2
    | none =>
      rw [h2, Option.none_or] at h
      cases h3 : attrSel uris s with
      | some q =>
        rw [h3, Option.some_or, Option.some.injEq] at h
        subst h
        unfold attrSel at h3
        split at h3
        · rename_i c vs t
          split at h3
          · rename_i hc
            rw [Option.map_eq_some_iff] at h3
            obtain ⟨a, ha, e⟩ := h3
            simp only [Prod.mk.injEq] at e
            obtain ⟨rfl, rfl⟩ := e
            subst hc
            exact ⟨[.block 0x5B vs], rfl, .attr (attrBody_sound ha)⟩
          · simp at h3
        · simp at h3
      | none =>
        rw [h3, Option.none_or] at h
        obtain ⟨s1, e, hp⟩ := pseudoClass_sound h
        exact ⟨s1, e, .pseudo hp⟩

theorem pseudoElem_sound {s x r} (h : pseudoElem s = some (x, r)) : ∃ s1, s = s1 ++ r ∧ PseudoElem s1 x := by
  unfold pseudoElem at h
  split at h
  · rename_i t
    split at h
    · rename_i y q hq
      simp only [Option.some.injEq, Prod.mk.injEq] at h
      obtain ⟨rfl, rfl⟩ := h
      obtain ⟨s1, rfl, hp⟩ := pseudoClass_sound hq
      cases hp with
      | name n _ => exact ⟨[colon, colon, ident n], rfl, .name n⟩
      | fn n a => exact ⟨[colon, colon, .fn n a], rfl, .fn n a⟩
    · unfold legacyElem at h
      split at h
      · rename_i n q hq
        split at h
        · rename_i hn
          simp only [Option.some.injEq, Prod.mk.injEq] at h
          obtain ⟨rfl, rfl⟩ := h
          unfold skipColon at hq
          split at hq
          · subst hq; exact ⟨[colon, colon, ident n], rfl, .name n⟩
          · subst hq; exact ⟨[colon, ident n], rfl, .legacy n ((legacy_iff n).mp hn)⟩
        · simp at h
      · simp at h
  · simp at h

theorem many_sound {P : List Prim → Simple → Prop} {f : List Prim → Option (Simple × List Prim)}
    (hf : ∀ s x r, f s = some (x, r) → ∃ s1, s = s1 ++ r ∧ P s1 x) : ∀ fuel s, ∃ s1, s = s1 ++ (many f fuel s).2 ∧ Many P s1 (many f fuel s).1 := by
  intro fuel
  induction fuel with
  | zero => intro s; exact ⟨[], rfl, .nil⟩
  | succ n ih =>
    intro s
    rw [many]
    split
    · exact ⟨[], rfl, .nil⟩
    · rename_i x r hx
      obtain ⟨s1, rfl, hp⟩ := hf _ _ _ hx
      obtain ⟨s2, e, hm⟩ := ih r
      refine ⟨s1 ++ s2, ?_, .cons hp hm⟩
      dsimp only
      rw [List.append_assoc, ← e]

theorem elems_sound : ∀ fuel s, ∃ s1, s = s1 ++ (elems fuel s).2 ∧ Elems s1 (elems fuel s).1 := by
  intro fuel
  induction fuel with
  | zero => intro s; exact ⟨[], rfl, .nil⟩
  | succ n ih =>
    intro s
    rw [elems]
    split
    · exact ⟨[], rfl, .nil⟩
    · rename_i x r hx
      obtain ⟨s1, rfl, hp⟩ := pseudoElem_sound hx
      obtain ⟨s2, e2, hm⟩ := many_sound (f := pseudoClass) (fun s x r => pseudoClass_sound) r.length r
      obtain ⟨s3, e3, hm3⟩ := ih (many pseudoClass r.length r).2
      refine ⟨s1 ++ s2 ++ s3, ?_, .cons hp hm hm3⟩
      dsimp only
      rw [List.append_assoc, List.append_assoc, ← e3, ← e2]

theorem starAt_sound {pre s x r} (h : starAt pre s = some (x, r)) : s = delim 0x2A :: r ∧ x = .universal pre := by
  unfold starAt at h
  split at h
  · split at h
    · rename_i hc
      simp only [Option.some.injEq, Prod.mk.injEq] at h
      obtain ⟨rfl, rfl⟩ := h
      subst hc
      exact ⟨rfl, rfl⟩
    · simp at h
  · simp at h

theorem typeSel_sound {s x r} (h : typeSel uris s = some (x, r)) : ∃ s1, s = s1 ++ r ∧ TypeSel (lang uris True) s1 x := by
  unfold typeSel at h
  split at h
  · rename_i o n q hq
    simp only [Option.some.injEq, Prod.mk.injEq] at h
    obtain ⟨rfl, rfl⟩ := h
    obtain ⟨s1, rfl, ho⟩ := wqName_sound hq
    exact ⟨s1 ++ [ident n], by simp, .name ho⟩
  · split at h
    · rename_i p q hq
      obtain ⟨s1, rfl, hp⟩ := nsPrefix_sound hq
      obtain ⟨rfl, rfl⟩ := starAt_sound h
      exact ⟨s1 ++ [delim 0x2A], by simp, .star (.yes hp)⟩
    · obtain ⟨rfl, rfl⟩ := starAt_sound h
      exact ⟨[delim 0x2A], rfl, .star (s := []) .no⟩

theorem typeOpt_sound (s : List Prim) : ∃ s1, s = s1 ++ (typeOpt uris s).2 ∧ OptType (lang uris True) s1 (typeOpt uris s).1 := by
  unfold typeOpt
  split
  · rename_i x r h
    obtain ⟨s1, e, ht⟩ := typeSel_sound h
    exact ⟨s1, e, .yes ht⟩
  · exact ⟨[], rfl, .no⟩

theorem compound_sound {s c r} (h : compound uris s = some (c, r)) : ∃ s1, s = s1 ++ r ∧ Compound (lang uris True) s1 c := by
  unfold compound at h
  dsimp only at h
  split at h
  · simp at h
  · rename_i hne
    simp only [Option.some.injEq, Prod.mk.injEq] at h
    obtain ⟨rfl, rfl⟩ := h
    obtain ⟨a, ea, ha⟩ := typeOpt_sound (uris := uris) s
    obtain ⟨b, eb, hb⟩ := many_sound (f := subclass uris) (fun s x r => subclass_sound) (typeOpt uris s).2.length (typeOpt uris s).2
    obtain ⟨c, ec, hc⟩ := elems_sound (many (subclass uris) (typeOpt uris s).2.length (typeOpt uris s).2).2.length
      (many (subclass uris) (typeOpt uris s).2.length (typeOpt uris s).2).2
    refine ⟨a ++ b ++ c, ?_, .mk ha hb hc (by simpa using hne)⟩
    rw [List.append_assoc, List.append_assoc, ← ec, ← eb, ← ea]

theorem combinator_sound {s k r} (h : combinator s = some (k, r)) : ∃ s1, s = s1 ++ r ∧ Sign s1 k := by
  unfold combinator at h
  split at h
  · rename_i c t
    split at h
    · rename_i hc
      simp only [Option.some.injEq, Prod.mk.injEq] at h
      obtain ⟨rfl, rfl⟩ := h
      exact ⟨[delim c], rfl, .one c (by simpa using hc)⟩
    · split at h
      · rename_i hc
        subst hc
        split at h
        · split at h
          · rename_i hd
            simp only [Option.some.injEq, Prod.mk.injEq] at h
            obtain ⟨rfl, rfl⟩ := h
            subst hd
            exact ⟨_, rfl, .column⟩
          · simp at h
        · simp at h
      · simp at h
  · simp at h

theorem complexLoop_sound : ∀ fuel s, ∃ s1, s = s1 ++ (complexLoop uris fuel s).2 ∧ Steps (lang uris True) s1 (complexLoop uris fuel s).1 := by
  intro fuel
  induction fuel with
  | zero => intro s; exact ⟨[], rfl, .nil⟩
  | succ n ih =>
    intro s
    rw [complexLoop]
    split
    · exact ⟨[], rfl, .nil⟩
    · dsimp only
      split
      · exact ⟨[], rfl, .nil⟩
      · rename_i hws
        cases hc : combinator (skipWs s) with
        | none =>
          rw [hc] at hws
          have hsw : startsWs s = true := by
            cases h : startsWs s with
            | true => rfl
            | false => exact absurd ⟨h, rfl⟩ hws
          obtain ⟨w, hw, hne, ew⟩ := startsWs_split hsw
          obtain ⟨w2, hw2, ew2⟩ := skipWs_split (skipWs s)
          dsimp only
          cases hq : compound uris (skipWs (skipWs s)) with
          | none => exact ⟨[], rfl, .nil⟩
          | some q =>
            obtain ⟨x, r'⟩ := q
            obtain ⟨s1, e1, h1⟩ := compound_sound hq
            obtain ⟨s2, e2, h2⟩ := ih r'
            have hww : Ws (w ++ w2) := fun p hp => (List.mem_append.mp hp).elim (hw p) (hw2 p)
            refine ⟨w ++ w2 ++ s1 ++ s2, ?_, .cons (.descendant hww (by simp [hne])) h1 h2⟩
            dsimp only
            rw [List.append_assoc, ← e2, List.append_assoc, ← e1, List.append_assoc, ← ew2, ← ew]
        | some q =>
          obtain ⟨k, r⟩ := q
          obtain ⟨t, et, ht⟩ := combinator_sound hc
          obtain ⟨w, hw, ew⟩ := skipWs_split s
          obtain ⟨w2, hw2, ew2⟩ := skipWs_split r
          dsimp only
          cases hq : compound uris (skipWs r) with
          | none => exact ⟨[], rfl, .nil⟩
          | some q =>
            obtain ⟨x, r'⟩ := q
            obtain ⟨s1, e1, h1⟩ := compound_sound hq
            obtain ⟨s2, e2, h2⟩ := ih r'
            refine ⟨w ++ t ++ w2 ++ s1 ++ s2, ?_, .cons (.sign hw ht hw2) h1 h2⟩
            dsimp only
            rw [List.append_assoc, ← e2, List.append_assoc, ← e1, List.append_assoc, ← ew2, List.append_assoc, ← et, ← ew]

theorem steps_complex {L s2 is} (h : Steps L s2 is) : ∀ {s l}, IsComplex L s l → ∃ x, IsComplex L (s ++ s2) x ∧ x.items = l.items ++ is := by
  induction h with
  | nil => intro s l h; exact ⟨l, by simpa using h, by simp⟩
  | @cons k n t c s' is hk hc _ ih =>
    intro s l h
    obtain ⟨x, hx, e⟩ := ih (IsComplex.step h hk hc)
    refine ⟨x, by simpa using hx, ?_⟩
    rw [e, Complex.items]; simp

theorem complex_sound {s x r} (h : complex uris s = some (x, r)) : ∃ s1 y, s = s1 ++ r ∧ IsComplex (lang uris True) s1 y ∧ x = y.items := by
  unfold complex at h
  split at h
  · simp at h
  · rename_i c q hq
    simp only [Option.some.injEq, Prod.mk.injEq] at h
    obtain ⟨rfl, rfl⟩ := h
    obtain ⟨s1, rfl, h1⟩ := compound_sound hq
    obtain ⟨s2, e2, h2⟩ := complexLoop_sound (uris := uris) q.length q
    obtain ⟨y, hy, ey⟩ := steps_complex h2 (.single h1)
    exact ⟨s1 ++ s2, y, by rw [List.append_assoc, ← e2], hy, by rw [ey]; rfl⟩

theorem listLoop_sound : ∀ fuel s xs r, listLoop uris fuel s = some (xs, r) → xs = [] ∨
    ∃ w w' s1 ys r', Ws w ∧ Ws w' ∧ s = w ++ [comma] ++ w' ++ s1 ++ r' ∧ IsList (lang uris True) s1 ys ∧ xs = ys.map Complex.items := by
  intro fuel
  induction fuel with
  | zero =>
    intro s xs r h
    rw [listLoop.eq_def] at h
    dsimp only at h
    split at h
    · simp at h
    · simp only [Option.some.injEq, Prod.mk.injEq] at h
      exact Or.inl h.1.symm
  | succ n ih =>
    intro s xs r h
    rw [listLoop.eq_def] at h
    dsimp only at h
    split at h
    · rename_i q hq
      obtain ⟨w, hw, ew⟩ := skipWs_split s
      obtain ⟨w', hw', ew'⟩ := skipWs_split q
      split at h
      · simp at h
      · rename_i x r' hx
        obtain ⟨s1, y, e1, h1, rfl⟩ := complex_sound hx
        split at h
        · simp at h
        · rename_i zs p hp
          simp only [Option.some.injEq, Prod.mk.injEq] at h
          obtain ⟨rfl, rfl⟩ := h
          right
          rcases ih _ _ _ hp with rfl | ⟨v, v', s2, ys, r2, hv, hv', e2, h2, rfl⟩
          · exact ⟨w, w', s1, [y], r', hw, hw', by rw [ew, hq, ew', e1]; simp, .one h1, rfl⟩
          · refine ⟨w, w', s1 ++ v ++ [comma] ++ v' ++ s2, y :: ys, r2, hw, hw', ?_, .cons h1 hv hv' h2, rfl⟩
            rw [ew, hq, ew', e1, e2]; simp
    · simp only [Option.some.injEq, Prod.mk.injEq] at h
      exact Or.inl h.1.symm

theorem select_sound {s : List Prim} (h : parseList uris s ≠ []) :
    ∃ s1 r xs, s = s1 ++ r ∧ IsList (lang uris True) s1 xs ∧ parseList uris s = xs.map Complex.items := by
  unfold parseList at h ⊢
  unfold selectorList at h ⊢
  split at h
  · simp at h
  · rename_i x r hx
    obtain ⟨s1, y, e1, h1, rfl⟩ := complex_sound hx
    split at h
    · simp at h
    · rename_i zs p hp
      dsimp only
      rcases listLoop_sound _ _ _ _ hp with rfl | ⟨v, v', s2, ys, r2, hv, hv', e2, h2, rfl⟩
      · exact ⟨s1, r, [y], e1, .one h1, rfl⟩
      · refine ⟨s1 ++ v ++ [comma] ++ v' ++ s2, r2, y :: ys, ?_, .cons h1 hv hv' h2, rfl⟩
        rw [e1, e2]; simp

end Verif.Proof.Selector
