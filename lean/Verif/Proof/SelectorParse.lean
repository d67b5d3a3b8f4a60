import Verif.Spec.Selector
import Mathlib.Tactic.SplitIfs
import Mathlib.Tactic.ByContra
/-! The selector parser against the grammar. -/
namespace Verif.Proof.Selector
open Verif.Model.CssTok (Token)
open Verif.Model.CssParse (Prim)
open Verif.Model.Selector Verif.Spec.Selector Verif.Spec.Infra

theorem low_eq (s : List Nat) : low s = s.map lower := by
  unfold low
  apply List.map_congr_left
  intro c _
  simp only [Verif.Model.Infra.isAsciiUpperAlpha, lower, Bool.and_eq_true, decide_eq_true_eq]

theorem legacy_iff (n : List Nat) : low n ∈ legacy ↔ Legacy n := by
  rw [low_eq, Legacy]
  have : legacy = ["before", "after", "first-line", "first-letter"].map fun s => s.toList.map Char.toNat := by decide +kernel
  rw [this]

/-- The language of the parser. -/
def lang (uris : Uris) (loose : Prop) : Lang := ⟨fun p => (uris p).isSome = true, loose⟩

variable {uris : Uris}

theorem skipWs_app {w : List Prim} (h : Ws w) (s : List Prim) : skipWs (w ++ s) = skipWs s := by
  induction w with
  | nil => rfl
  | cons p w ih =>
    have := h p (by simp)
    subst this
    rw [List.cons_append, skipWs, ih (fun q hq => h q (by simp [hq]))]

theorem skipWs_ws {w : List Prim} (h : Ws w) : skipWs w = [] := by
  have := skipWs_app h []
  rwa [List.append_nil] at this

/-- No prefix can be read at the sign `|`. -/
def Bar (r : List Prim) : Prop := ∀ r', r = delim 0x7C :: r' → nameAhead r' = false

theorem nsPrefix_complete {s p} (h : Prefix (lang uris False) s p) (r : List Prim) : nsPrefix uris (s ++ r) = some (p, r) := by
  cases h with
  | any => simp [nsPrefix, prefixName]
  | none => simp [nsPrefix, prefixName]
  | name p hp =>
    have hp : (uris p).isSome = true := hp
    simp [nsPrefix, prefixName, hp]
  | odd p hl => exact hl.elim

theorem wqName_yes {s p} (h : Prefix (lang uris False) s p) (n : List Nat) (r : List Prim) :
    wqName uris (s ++ ident n :: r) = some ((some p, n), r) := by
  rw [wqName, nsPrefix_complete h]; simp [nameAhead, identAt]

theorem wqName_no {n : List Nat} {r : List Prim} (h : Bar r) : wqName uris (ident n :: r) = some ((none, n), r) := by
  rw [wqName]
  cases hq : nsPrefix uris (ident n :: r) with
  | none => rfl
  | some q =>
    obtain ⟨p, r'⟩ := q
    have : nameAhead r' = false := by
      unfold nsPrefix at hq
      rw [show prefixName (ident n :: r) = (n, r) from rfl] at hq
      dsimp only at hq
      split at hq
      · rename_i c t
        split at hq
        · rename_i hc
          subst hc
          by_cases hd : (uris n).isSome = true ∨ n = [0x2A] ∨ n = []
          · rw [if_pos hd] at hq
            simp only [Option.some.injEq, Prod.mk.injEq] at hq
            rw [← hq.2]; exact h _ rfl
          · rw [if_neg hd] at hq; simp at hq
        · simp at hq
      · simp at hq
    dsimp only
    rw [this]; rfl

theorem wqName_opt {s o} (h : OptPrefix (lang uris False) s o) {n : List Nat} {r : List Prim} (hr : Bar r) :
    wqName uris (s ++ ident n :: r) = some ((o, n), r) := by
  cases h with
  | no => exact wqName_no hr
  | yes h => exact wqName_yes h n r

theorem attrMatcher_complete {m k} (h : Matcher m k) (r : List Prim) : attrMatcher (m ++ r) = some (k, r) := by
  cases h with
  | eq => simp [attrMatcher]
  | op c hc =>
    simp only [List.mem_cons, List.not_mem_nil, or_false] at hc
    rcases hc with rfl | rfl | rfl | rfl | rfl <;> simp [attrMatcher]

theorem matcher_bar {m k} (h : Matcher m k) (r : List Prim) : Bar (m ++ r) := by
  intro r' e
  cases h with
  | eq => simp at e
  | op c hc => simp at e; rw [← e.2]; rfl

theorem ws_bar {w : List Prim} (h : Ws w) {r : List Prim} (hr : Bar r) : Bar (w ++ r) := by
  cases w with
  | nil => exact hr
  | cons p w =>
    have := h p (by simp)
    subst this
    intro r' e; simp at e

theorem bar_nil : Bar [] := by intro r' e; simp at e

theorem opt_ident_ws {s o n r} (h : OptPrefix (lang uris False) s o) : skipWs (s ++ ident n :: r) = s ++ ident n :: r := by
  cases h with
  | no => rfl
  | yes h => cases h <;> rfl

theorem matcher_ws {m k r} (h : Matcher m k) : skipWs (m ++ r) = m ++ r := by cases h <;> rfl

theorem attrValue_complete {p v} (h : Value p v) (s : List Prim) : attrValue (p :: s) = some (v, attrModifier (skipWs s)) := by
  cases h <;> rfl

theorem value_ws {p v r} (h : Value p v) : skipWs (p :: r) = p :: r := by cases h <;> rfl

theorem attrModifier_complete {q i} (h : Modifier q i) (r : List Prim) : attrModifier (skipWs (q :: r)) = i := by
  cases h with
  | i c hc => simp only [List.mem_cons, List.not_mem_nil, or_false] at hc; rcases hc with rfl | rfl <;> rfl
  | s c hc => simp only [List.mem_cons, List.not_mem_nil, or_false] at hc; rcases hc with rfl | rfl <;> rfl

theorem attrBody_complete {vs a} (h : AttrBody (lang uris False) vs a) : attrBody uris vs = some a := by
  cases h with
  | @name w s o n w' hw hs hw' =>
    have e : w ++ s ++ [ident n] ++ w' = w ++ (s ++ ident n :: w') := by simp
    have hb : Bar w' := by simpa using ws_bar hw' bar_nil
    rw [e, attrBody, skipWs_app hw, opt_ident_ws hs, wqName_opt hs hb]
    dsimp only
    rw [skipWs_ws hw']
    rfl
  | @value w s o n w' m k w'' p v w₃ j hw hs hw' hm hw'' hp hw₃ hj =>
    have hj : j = [] := hj.resolve_right (fun h => h)
    subst hj
    have e : w ++ s ++ [ident n] ++ w' ++ m ++ w'' ++ [p] ++ w₃ ++ [] = w ++ (s ++ ident n :: (w' ++ (m ++ (w'' ++ p :: w₃)))) := by simp
    rw [e, attrBody, skipWs_app hw, opt_ident_ws hs, wqName_opt hs (ws_bar hw' (matcher_bar hm _))]
    dsimp only
    rw [skipWs_app hw', matcher_ws hm, attrMatcher_complete hm]
    dsimp only
    rw [skipWs_app hw'', value_ws hp, attrValue_complete hp, skipWs_ws hw₃]
    rfl
  | @modified w s o n w' m k w'' p v w₃ q i w₄ j hw hs hw' hm hw'' hp hw₃ hq hw₄ hj =>
    have hj : j = [] := hj.resolve_right (fun h => h)
    subst hj
    have e : w ++ s ++ [ident n] ++ w' ++ m ++ w'' ++ [p] ++ w₃ ++ [q] ++ w₄ ++ [] =
        w ++ (s ++ ident n :: (w' ++ (m ++ (w'' ++ p :: (w₃ ++ q :: w₄))))) := by simp
    rw [e, attrBody, skipWs_app hw, opt_ident_ws hs, wqName_opt hs (ws_bar hw' (matcher_bar hm _))]
    dsimp only
    rw [skipWs_app hw', matcher_ws hm, attrMatcher_complete hm]
    dsimp only
    rw [skipWs_app hw'', value_ws hp, attrValue_complete hp, skipWs_app hw₃, attrModifier_complete hq]

theorem pseudoClass_complete {s x} (h : PseudoClass s x) (r : List Prim) : pseudoClass (s ++ r) = some (x, r) := by
  cases h with
  | name n hn =>
    simp only [List.cons_append, List.nil_append, pseudoClass, if_neg (fun w => hn ((legacy_iff n).mp w))]
  | fn n a => rfl

theorem subclass_complete {s x} (h : SubSel (lang uris False) s x) (r : List Prim) : subclass uris (s ++ r) = some (x, r) := by
  cases h with
  | id v b _ => rfl
  | cls n => simp [subclass, idSel, classSel]
  | @attr vs a ha => simp [subclass, idSel, classSel, attrSel, attrBody_complete ha]
  | pseudo hp =>
    have := pseudoClass_complete hp r
    rw [subclass, this]
    cases hp <;> simp [idSel, classSel, attrSel]

theorem pseudoElem_complete {s x} (h : PseudoElem s x) (r : List Prim) : pseudoElem (s ++ r) = some (x, r) := by
  cases h with
  | name n =>
    simp only [List.cons_append, List.nil_append, pseudoElem, pseudoClass]
    by_cases hn : low n ∈ legacy
    · rw [if_pos hn]; simp [skipColon, legacyElem, hn]
    · rw [if_neg hn]; rfl
  | fn n a => rfl
  | legacy n hn =>
    have := (legacy_iff n).mpr hn
    simp [pseudoElem, pseudoClass, skipColon, legacyElem, this]

theorem many_complete {P : List Prim → Simple → Prop} {f : List Prim → Option (Simple × List Prim)}
    (hf : ∀ s x r, P s x → f (s ++ r) = some (x, r)) (hne : ∀ s x, P s x → s ≠ []) {s xs} (h : Many P s xs) {r : List Prim}
    (hr : f r = none) : ∀ fuel, s.length ≤ fuel → many f fuel (s ++ r) = (xs, r) := by
  induction h with
  | nil =>
    intro fuel _
    cases fuel with
    | zero => rfl
    | succ n => rw [List.nil_append, many, hr]
  | @cons s x s' xs hp _ ih =>
    intro fuel hl
    have := List.length_pos_iff.mpr (hne s x hp)
    rw [List.length_append] at hl
    cases fuel with
    | zero => omega
    | succ n =>
      rw [List.append_assoc, many, hf s x _ hp]
      dsimp only
      rw [ih n (by omega)]

theorem pseudoClass_ne {s x} (h : PseudoClass s x) : s ≠ [] := by cases h <;> simp
theorem pseudoElem_ne {s x} (h : PseudoElem s x) : s ≠ [] := by cases h <;> simp
theorem subSel_ne {L s x} (h : SubSel L s x) : s ≠ [] := by
  cases h with
  | pseudo h => exact pseudoClass_ne h
  | _ => simp

theorem pseudoClass_elem {s x} (h : PseudoElem s x) (r : List Prim) : pseudoClass (s ++ r) = none := by
  cases h with
  | name n => rfl
  | fn n a => rfl
  | legacy n hn => simp [pseudoClass, (legacy_iff n).mpr hn]

theorem pseudoClass_elems {s xs} (h : Elems s xs) {r : List Prim} (hr : pseudoClass r = none) : pseudoClass (s ++ r) = none := by
  cases h with
  | nil => exact hr
  | cons h _ _ => rw [List.append_assoc, List.append_assoc]; exact pseudoClass_elem h _

theorem elems_complete {s xs} (h : Elems s xs) {r : List Prim} (hr : pseudoElem r = none) (hr' : pseudoClass r = none) :
    ∀ fuel, s.length ≤ fuel → elems fuel (s ++ r) = (xs, r) := by
  induction h with
  | nil =>
    intro fuel _
    cases fuel with
    | zero => rfl
    | succ n => rw [List.nil_append, elems, hr]
  | @cons s x s' xs s'' ys hp hm he ih =>
    intro fuel hl
    have := List.length_pos_iff.mpr (pseudoElem_ne hp)
    rw [List.length_append, List.length_append] at hl
    cases fuel with
    | zero => omega
    | succ n =>
      rw [List.append_assoc, List.append_assoc, elems, pseudoElem_complete hp]
      dsimp only
      rw [many_complete (fun s x r h => pseudoClass_complete h r) (fun s x => pseudoClass_ne) hm (pseudoClass_elems he hr') _ (by simp),
        ih n (by omega)]
      rfl

/-- What may follow a compound selector. -/
inductive Follow : List Prim → Prop
  | nil : Follow []
  | ws (r) : Follow (.tok .whitespace :: r)
  | comma (r) : Follow (comma :: r)
  | sign (c r) : c ∈ [0x3E, 0x2B, 0x7E] → Follow (delim c :: r)
  | column (r) : Follow (delim 0x7C :: delim 0x7C :: r)

theorem follow_sub {r} (h : Follow r) : subclass uris r = none := by
  cases h with
  | sign c r hc =>
    simp only [List.mem_cons, List.not_mem_nil, or_false] at hc
    have h1 : classSel (delim c :: r) = none := by
      unfold classSel
      split
      · rename_i c' n t e
        simp only [List.cons.injEq, Prim.tok.injEq, Token.delim.injEq] at e
        rw [if_neg]
        omega
      · rfl
    rw [subclass, h1]
    rfl
  | _ => rfl

theorem follow_class {r} (h : Follow r) : pseudoClass r = none := by cases h <;> rfl

theorem follow_elem {r} (h : Follow r) : pseudoElem r = none := by cases h <;> rfl

theorem follow_bar {r} (h : Follow r) : Bar r := by
  intro r' e
  cases h with
  | sign c r hc => simp at e; obtain ⟨rfl, _⟩ := e; simp at hc
  | column r => simp at e; rw [← e]; rfl
  | _ => simp at e

/-- The start of a subclass selector or a pseudo-element. -/
inductive Start : List Prim → Prop
  | hash (v b r) : Start (.tok (.hash v b) :: r)
  | dot (r) : Start (delim 0x2E :: r)
  | block (c vs r) : Start (.block c vs :: r)
  | colon (r) : Start (colon :: r)

theorem start_type {r} (h : Start r) : typeSel uris r = none := by
  cases h <;> simp [typeSel, wqName, nsPrefix, prefixName, identAt, starAt]

theorem start_bar {r} (h : Start r) : Bar r := by
  intro r' e
  cases h <;> simp at e

theorem start_head {r} (h : Start r) : skipWs r = r ∧ combinator r = none := by
  cases h <;> simp [skipWs, combinator]

theorem sub_start {L s x} (h : SubSel L s x) (r : List Prim) : Start (s ++ r) := by
  cases h with
  | id v b _ => exact .hash _ _ _
  | cls n => exact .dot _
  | attr _ => exact .block _ _ _
  | pseudo h => cases h <;> exact .colon _

theorem elem_start {s x} (h : PseudoElem s x) (r : List Prim) : Start (s ++ r) := by cases h <;> exact .colon _

theorem rest_start {L b ys c zs} (hb : Many (SubSel L) b ys) (hc : Elems c zs) (r : List Prim) :
    (b = [] ∧ c = [] ∧ ys = [] ∧ zs = []) ∨ Start (b ++ c ++ r) := by
  cases hb with
  | nil =>
    cases hc with
    | nil => exact Or.inl ⟨rfl, rfl, rfl, rfl⟩
    | cons h _ _ => right; rw [List.nil_append, List.append_assoc, List.append_assoc]; exact elem_start h _
  | cons h _ => right; rw [List.append_assoc, List.append_assoc]; exact sub_start h _

theorem typeSel_complete {s x} (h : TypeSel (lang uris False) s x) {r : List Prim} (hr : Bar r)
    (hs : ∀ q, x = .universal none → r ≠ delim 0x7C :: q) : typeSel uris (s ++ r) = some (x, r) := by
  cases h with
  | @name s o n ho => rw [List.append_assoc, List.singleton_append, typeSel, wqName_opt ho hr]
  | @star s o ho =>
    cases ho with
    | no =>
      have hn : nsPrefix uris (delim 0x2A :: r) = none := by
        simp only [nsPrefix, prefixName]
        simp only [if_true]
        split
        · rename_i c t
          split
          · rename_i hc; subst hc; exact absurd rfl (hs t rfl)
          · rfl
        · rfl
      simp only [List.nil_append, List.singleton_append, typeSel, wqName, hn, identAt, starAt, if_true]
    | @yes _ p hp =>
      have hn := nsPrefix_complete hp (delim 0x2A :: r)
      simp only [List.append_assoc, List.singleton_append, typeSel, wqName, hn, identAt, starAt, nameAhead, if_true, beq_self_eq_true]

/-- No `*` is followed by `||`. -/
def NoStarBar (s : List Prim) : Prop := ∀ a b, s ≠ a ++ delim 0x2A :: delim 0x7C :: delim 0x7C :: b

theorem NoStarBar.right {a b : List Prim} (h : NoStarBar (a ++ b)) : NoStarBar b := by
  rintro x y rfl
  exact h (a ++ x) y (by simp)

theorem compound_complete {s c} (h : Compound (lang uris False) s c) {r : List Prim} (hr : Follow r) (hn : NoStarBar (s ++ r)) :
    compound uris (s ++ r) = some (c, r) := by
  cases h with
  | @mk a xs b ys c zs ha hb hc hne =>
    have hty : typeOpt uris (a ++ (b ++ c ++ r)) = (xs, b ++ c ++ r) := by
      unfold typeOpt
      cases ha with
      | no =>
        rcases rest_start hb hc r with ⟨_, _, e1, e2⟩ | h
        · simp [e1, e2] at hne
        · rw [List.nil_append, start_type h]
      | @yes _ x h =>
        rw [typeSel_complete h]
        · rcases rest_start hb hc r with ⟨e1, e2, _, _⟩ | h
          · rw [e1, e2]; exact follow_bar hr
          · exact start_bar h
        · intro q hx e
          rcases rest_start hb hc r with ⟨e1, e2, _, _⟩ | h
          · rw [e1, e2] at e hn
            simp only [List.append_nil, List.nil_append] at e hn
            subst e
            cases hr with
            | sign c r hc => simp at hc
            | column r =>
              subst hx
              cases h with
              | star ho =>
                cases ho with
                | no => exact hn [] r rfl
          · rw [e] at h; cases h
    have hsub : subclass uris (c ++ r) = none := by
      cases hc with
      | nil => exact follow_sub hr
      | cons h _ _ =>
        rw [List.append_assoc, List.append_assoc]
        have := pseudoClass_elem h
        rw [subclass, this]
        cases h <;> simp [idSel, classSel, attrSel]
    have e : a ++ b ++ c ++ r = a ++ (b ++ c ++ r) := by simp
    rw [e, compound, hty]
    dsimp only
    rw [List.append_assoc b c r, many_complete (fun s x r h => subclass_complete h r) (fun s x h => subSel_ne h) hb hsub _ (by simp)]
    dsimp only
    rw [elems_complete hc (follow_elem hr) (follow_class hr) _ (by simp), if_neg (by simpa using hne)]

theorem compound_head {L s c} (h : Compound L s c) (r : List Prim) : skipWs (s ++ r) = s ++ r ∧ combinator (s ++ r) = none := by
  cases h with
  | @mk a xs b ys c zs ha hb hc hne =>
    cases ha with
    | no =>
      rcases rest_start hb hc r with ⟨_, _, e1, e2⟩ | h
      · simp [e1, e2] at hne
      · rw [List.nil_append]
        exact start_head h
    | yes h =>
      cases h with
      | name ho =>
        cases ho with
        | no => exact ⟨rfl, rfl⟩
        | yes h => cases h <;> exact ⟨rfl, by simp [combinator]⟩
      | star ho =>
        cases ho with
        | no => exact ⟨rfl, by simp [combinator]⟩
        | yes h => cases h <;> exact ⟨rfl, by simp [combinator]⟩

/-- What follows the first compound selector of a complex selector. -/
inductive Steps (L : Lang) : List Prim → List Item → Prop
  | nil : Steps L [] []
  | cons {k n s c s' is} : Comb k n → Compound L s c → Steps L s' is → Steps L (k ++ s ++ s') (.comb n :: .comp c :: is)

theorem Steps.snoc {L s is} (h : Steps L s is) {k n s' c} (hk : Comb k n) (hc : Compound L s' c) :
    Steps L (s ++ k ++ s') (is ++ [.comb n, .comp c]) := by
  induction h with
  | nil =>
    have := Steps.cons hk hc (Steps.nil (L := L))
    simpa using this
  | @cons k' n' t d s'' is' h1 h2 _ ih =>
    have := Steps.cons h1 h2 ih
    simpa using this

theorem complex_steps {L s x} (h : IsComplex L s x) :
    ∃ s1 c s2 is, s = s1 ++ s2 ∧ Compound L s1 c ∧ Steps L s2 is ∧ x.items = .comp c :: is := by
  induction h with
  | @single s c h => exact ⟨s, c, [], [], by simp, h, .nil, rfl⟩
  | @step s l k n s' c _ hk hc ih =>
    obtain ⟨s1, c1, s2, is, rfl, h1, h2, h3⟩ := ih
    exact ⟨s1, c1, s2 ++ k ++ s', is ++ [.comb n, .comp c], by simp, h1, h2.snoc hk hc, by simp [Complex.items, h3]⟩

/-- The end of a complex selector. -/
def End (r : List Prim) : Prop := ∃ w r', Ws w ∧ r = w ++ r' ∧ (r' = [] ∨ ∃ q, r' = comma :: q)

theorem end_skip {r'} (h : r' = [] ∨ ∃ q, r' = comma :: q) : skipWs r' = r' := by
  rcases h with rfl | ⟨q, rfl⟩ <;> rfl

theorem end_follow {r} (h : End r) : Follow r := by
  obtain ⟨w, r', hw, rfl, h⟩ := h
  cases w with
  | nil => rcases h with rfl | ⟨q, rfl⟩ <;> constructor
  | cons p w =>
    have := hw p (by simp)
    subst this
    exact .ws _

theorem end_compound {r'} (h : r' = [] ∨ ∃ q, r' = comma :: q) : compound uris r' = none := by
  rcases h with rfl | ⟨q, rfl⟩ <;>
  simp [compound, typeOpt, typeSel, wqName, nsPrefix, prefixName, identAt, starAt, many, elems, subclass, idSel, classSel, attrSel,
    pseudoClass, pseudoElem]

theorem end_combinator {r'} (h : r' = [] ∨ ∃ q, r' = comma :: q) : combinator r' = none := by
  rcases h with rfl | ⟨q, rfl⟩ <;> rfl

theorem steps_follow {L s is} (h : Steps L s is) {r : List Prim} (hr : Follow r) : Follow (s ++ r) := by
  cases h with
  | nil => exact hr
  | @cons k n s c s' is hk _ _ =>
    rw [List.append_assoc, List.append_assoc]
    cases hk with
    | descendant hw hne =>
      cases k with
      | nil => exact absurd rfl hne
      | cons p w =>
        have := hw p (by simp)
        subst this
        exact .ws _
    | @sign w s k w' hw hs _ =>
      cases w with
      | nil =>
        cases hs with
        | one c hc => exact .sign _ _ hc
        | column => exact .column _
      | cons p w =>
        have := hw p (by simp)
        subst this
        exact .ws _

theorem loop_end {r} (h : End r) (fuel : Nat) : complexLoop uris fuel r = ([], r) := by
  obtain ⟨w, r', hw, rfl, h⟩ := h
  cases fuel with
  | zero => rfl
  | succ n =>
    rw [complexLoop]
    split
    · rfl
    · dsimp only
      rw [skipWs_app hw, end_skip h, end_combinator h]
      split
      · rfl
      · dsimp only
        rw [end_skip h, end_compound h]

theorem sign_ws {s k} (h : Sign s k) (r : List Prim) : skipWs (s ++ r) = s ++ r := by cases h <;> rfl

theorem sign_combinator {s k} (h : Sign s k) (r : List Prim) : combinator (s ++ r) = some (k, r) := by
  cases h with
  | one c hc => simp only [List.mem_cons, List.not_mem_nil, or_false] at hc; rcases hc with rfl | rfl | rfl <;> simp [combinator]
  | column => simp [combinator]

theorem startsWs_ws {w : List Prim} (h : Ws w) (hn : w ≠ []) (s : List Prim) : startsWs (w ++ s) = true := by
  cases w with
  | nil => exact absurd rfl hn
  | cons p w =>
    have := h p (by simp)
    subst this
    rfl

theorem loop_complete {s is} (h : Steps (lang uris False) s is) {r : List Prim} (hr : End r) :
    NoStarBar (s ++ r) → ∀ fuel, s.length ≤ fuel → complexLoop uris fuel (s ++ r) = (is, r) := by
  induction h with
  | nil => intro _ fuel _; exact loop_end hr fuel
  | @cons k n s c s' is hk hc hs ih =>
    intro hn fuel hl
    have hf : Follow (s' ++ r) := steps_follow hs (end_follow hr)
    have e : k ++ s ++ s' ++ r = k ++ (s ++ (s' ++ r)) := by simp
    rw [e] at hn ⊢
    have hcc := compound_complete hc hf hn.right
    obtain ⟨hw1, hw2⟩ := compound_head hc (s' ++ r)
    have hih := ih hn.right.right
    simp only [List.length_append] at hl
    cases hk with
    | @descendant _ hw hne =>
      have := List.length_pos_iff.mpr hne
      cases fuel with
      | zero => omega
      | succ fuel =>
        rw [complexLoop, if_neg (by simp [hne])]
        dsimp only
        rw [skipWs_app hw, hw1, hw2, startsWs_ws hw hne, if_neg (by simp)]
        dsimp only
        rw [hw1, hcc]
        dsimp only
        rw [hih fuel (by omega)]
    | @sign w t _ w' hw ht hw' =>
      have htl : 0 < t.length := by cases ht <;> simp
      simp only [List.length_append] at hl
      cases fuel with
      | zero => omega
      | succ fuel =>
        have e2 : w ++ t ++ w' ++ (s ++ (s' ++ r)) = w ++ (t ++ (w' ++ (s ++ (s' ++ r)))) := by simp
        rw [complexLoop, if_neg (by cases ht <;> simp), e2]
        dsimp only
        rw [skipWs_app hw, sign_ws ht, sign_combinator ht, if_neg (by simp)]
        dsimp only
        rw [skipWs_app hw', hw1, hcc]
        dsimp only
        rw [hih fuel (by omega)]

theorem complex_complete {s x} (h : IsComplex (lang uris False) s x) {r : List Prim} (hr : End r) (hn : NoStarBar (s ++ r)) :
    complex uris (s ++ r) = some (x.items, r) := by
  obtain ⟨s1, c, s2, is, rfl, h1, h2, h3⟩ := complex_steps h
  rw [List.append_assoc] at hn ⊢
  rw [complex, compound_complete h1 (steps_follow h2 (end_follow hr)) hn]
  dsimp only
  rw [loop_complete h2 hr hn.right _ (by simp), h3]

theorem complex_head {L s x} (h : IsComplex L s x) (r : List Prim) : skipWs (s ++ r) = s ++ r := by
  obtain ⟨s1, c, s2, is, rfl, h1, h2, h3⟩ := complex_steps h
  rw [List.append_assoc]
  exact (compound_head h1 _).1

theorem list_head {L s x} (h : IsList L s x) (r : List Prim) : skipWs (s ++ r) = s ++ r := by
  cases h with
  | one h => exact complex_head h r
  | @cons s x w w' q xs h _ _ _ =>
    have := complex_head h (w ++ [comma] ++ w' ++ q ++ r)
    simpa using this

/-- `listLoop` behind a comma. -/
def listBody (uris : Uris) (fuel : Nat) (s : List Prim) : Option (List (List Item) × List Prim) :=
  match complex uris s with
  | none => none
  | some (x, r') =>
    match listLoop uris fuel r' with
    | none => none
    | some (xs, q) => some (x :: xs, q)

theorem listLoop_comma (fuel : Nat) {w : List Prim} (hw : Ws w) (r : List Prim) :
    listLoop uris (fuel + 1) (w ++ comma :: r) = listBody uris fuel (skipWs r) := by
  rw [listLoop.eq_def]
  dsimp only
  rw [skipWs_app hw]
  rfl

theorem listLoop_end (fuel : Nat) {w : List Prim} (hw : Ws w) : listLoop uris fuel w = some ([], []) := by
  rw [listLoop.eq_def]
  dsimp only
  rw [skipWs_ws hw]

theorem list_complete {s xs} (h : IsList (lang uris False) s xs) {w : List Prim} (hw : Ws w) :
    NoStarBar (s ++ w) → ∀ fuel, s.length ≤ fuel → listBody uris fuel (s ++ w) = some (xs.map Complex.items, []) := by
  induction h with
  | @one s x h =>
    intro hn fuel _
    rw [listBody, complex_complete h ⟨w, [], hw, by simp, Or.inl rfl⟩ hn]
    dsimp only
    rw [listLoop_end fuel hw]
    rfl
  | @cons s x w1 w2 r xs h h1 h2 hl ih =>
    intro hn fuel hfl
    have e : s ++ w1 ++ [comma] ++ w2 ++ r ++ w = s ++ (w1 ++ comma :: (w2 ++ (r ++ w))) := by simp
    rw [e] at hn ⊢
    simp only [List.length_append, List.length_cons] at hfl
    cases fuel with
    | zero => omega
    | succ fuel =>
      have hn2 : NoStarBar (r ++ w) := by
        have := hn.right.right
        have e2 : comma :: (w2 ++ (r ++ w)) = comma :: w2 ++ (r ++ w) := by simp
        rw [e2] at this
        exact this.right
      rw [listBody, complex_complete h ⟨w1, _, h1, rfl, Or.inr ⟨_, rfl⟩⟩ hn]
      dsimp only
      rw [listLoop_comma fuel h1, skipWs_app h2, list_head hl, ih hn2 fuel (by omega)]
      rfl

theorem select_complete {s xs} (h : IsList (lang uris False) s xs) {w : List Prim} (hw : Ws w) (hn : NoStarBar (s ++ w)) :
    selectorList uris (s ++ w) = (xs.map Complex.items, []) := by
  cases h with
  | @one _ x h =>
    rw [selectorList, complex_complete h ⟨w, [], hw, by simp, Or.inl rfl⟩ hn]
    dsimp only
    rw [listLoop_end _ hw]
    rfl
  | @cons s x w1 w2 r xs h h1 h2 hl =>
    have e : s ++ w1 ++ [comma] ++ w2 ++ r ++ w = s ++ (w1 ++ comma :: (w2 ++ (r ++ w))) := by simp
    rw [e] at hn ⊢
    have hn2 : NoStarBar (r ++ w) := by
      have := hn.right.right
      have e2 : comma :: (w2 ++ (r ++ w)) = comma :: w2 ++ (r ++ w) := by simp
      rw [e2] at this
      exact this.right
    rw [selectorList, complex_complete h ⟨w1, _, h1, rfl, Or.inr ⟨_, rfl⟩⟩ hn]
    dsimp only
    obtain ⟨n, hN, hle⟩ : ∃ n, (w1 ++ comma :: (w2 ++ (r ++ w))).length = n + 1 ∧ r.length ≤ n :=
      ⟨w1.length + (w2 ++ (r ++ w)).length, by simp; omega, by simp; omega⟩
    rw [hN, listLoop_comma n h1, skipWs_app h2, list_head hl, list_complete hl hw hn2 n hle]
    rfl

end Verif.Proof.Selector
