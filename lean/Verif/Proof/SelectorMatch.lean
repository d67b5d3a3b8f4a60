import Verif.Proof.SelectorParse
import Verif.Props.Infra
/-! Simple and compound selectors on the value of a node. -/
namespace Verif.Proof.Selector
open Verif.Model.CssTok (Token)
open Verif.Model.CssParse (Prim)
open Verif.Model.Selector Verif.Spec Verif.Spec.Selector Verif.Spec.Infra

/-- The document that a context stands for. -/
def docOf (c : Ctx) : Doc := ⟨c.type = htmlType, c.mode = quirksMode, c.uris⟩

theorem ci_iff (s t : List Nat) : ci s t = true ↔ Same s t := by
  unfold ci Same
  rw [low_eq, low_eq, beq_iff_eq]

theorem same_refl (s : List Nat) : Same s s := rfl
theorem same_symm {s t : List Nat} (h : Same s t) : Same t s := Eq.symm h
theorem same_trans {s t u : List Nat} (h : Same s t) (h' : Same t u) : Same s u := Eq.trans h h'

theorem sameIf_pos {b : Prop} (h : b) (s t : List Nat) : SameIf b s t ↔ Same s t := by
  unfold SameIf
  constructor
  · rintro (rfl | h)
    · rfl
    · exact h.2
  · exact fun w => Or.inr ⟨h, w⟩

theorem sameIf_neg {b : Prop} (h : ¬ b) (s t : List Nat) : SameIf b s t ↔ s = t := by
  unfold SameIf
  constructor
  · rintro (rfl | h')
    · rfl
    · exact absurd h'.1 h
  · exact Or.inl

theorem sameIf_join {b : Prop} {n s t : List Nat} (h : SameIf b n s) (h' : SameIf b n t) : SameIf b s t := by
  by_cases hb : b
  · rw [sameIf_pos hb] at *
    exact same_trans (same_symm h) h'
  · rw [sameIf_neg hb] at *
    exact h.symm.trans h'

theorem lower_idem (c : Nat) : lower (lower c) = lower c := by
  unfold lower
  split_ifs <;> first | rfl | omega

theorem map_lower_idem (s : List Nat) : (s.map lower).map lower = s.map lower := by
  rw [List.map_map]
  apply List.map_congr_left
  intro c _; exact lower_idem c

theorem isWs_lower (c : Nat) : IsWs (lower c) ↔ IsWs c := by
  unfold lower
  split_ifs with h
  · simp only [IsWs, List.mem_cons, List.not_mem_nil, or_false]
    constructor <;> intro h' <;> exfalso <;> omega
  · rfl

theorem fields_ne (s : List Nat) : fields IsWs s ≠ [] := by
  cases s with
  | nil => simp [fields]
  | cons c s =>
    rw [fields]
    split_ifs
    · simp
    · split <;> simp

theorem fields_lower (s : List Nat) : fields IsWs (s.map lower) = (fields IsWs s).map (List.map lower) := by
  induction s with
  | nil => rfl
  | cons c s ih =>
    rw [List.map_cons, fields, fields]
    by_cases h : IsWs c
    · rw [if_pos ((isWs_lower c).mpr h), if_pos h, ih, List.map_cons, List.map_nil]
    · rw [if_neg (fun w => h ((isWs_lower c).mp w)), if_neg h, ih]
      cases hf : fields IsWs s with
      | nil => exact absurd hf (fields_ne s)
      | cons x xs => simp

theorem words_lower (s : List Nat) : words (s.map lower) = (words s).map (List.map lower) := by
  unfold words
  rw [fields_lower, List.filter_map]
  congr 1
  apply List.filter_congr
  intro x _
  simp

theorem pieces_eq {s : List Nat} (h : ∀ c ∈ s, IsScalar c) : pieces s = words s := by
  have := Verif.Props.Infra.C31_split_on_whitespace .c32 s h
  have h1 : ∀ s, Verif.Props.Unicode.formOf .c32 s = s := fun _ => rfl
  unfold pieces
  rw [h1, List.map_congr_left (g := id) (fun x _ => h1 x), List.map_id] at this
  rw [this, Option.getD_some]

theorem nsType_iff (c : Ctx) (o : Option (List Nat)) (ns : List Nat) : nsType c o ns = true ↔ ElementNs (docOf c) o ns := by
  cases o with
  | none =>
    simp only [nsType, ElementNs, docOf]
    cases c.uris [] with
    | none => simp
    | some u =>
      simp only [beq_iff_eq, Option.some.injEq]
      exact ⟨fun h v e => h.symm.trans e, fun h => (h u rfl).symm⟩
  | some p =>
    simp only [nsType, ElementNs, Means, docOf]
    by_cases h1 : p = [0x2A]
    · simp [h1]
    · by_cases h2 : p = []
      · simp [h2]
      · simp [h1, h2]

theorem nsAttr_iff (c : Ctx) (o : Option (List Nat)) (ns : List Nat) : nsAttr c o ns = true ↔ AttrNs (docOf c) o ns := by
  cases o with
  | none => simp [nsAttr, AttrNs]
  | some p =>
    simp only [nsAttr, AttrNs, Means, docOf]
    by_cases h1 : p = [0x2A]
    · simp [h1]
    · by_cases h2 : p = []
      · simp [h2]
      · simp [h1, h2]

/-- The document is an HTML or an XML document. -/
def Known (c : Ctx) : Prop := (c.type = htmlType ∨ c.type = xmlType) ∧ c.bad = false

theorem nameAttr_iff {c : Ctx} (k : Known c) (n loc : List Nat) : nameAttr c n loc = true ↔ SameIf (docOf c).html n loc := by
  unfold nameAttr docOf
  dsimp only
  rcases k.1 with h | h
  · rw [sameIf_pos h, if_neg (by rw [h]; decide), ci_iff]
  · rw [sameIf_neg (by rw [h]; decide), if_pos h, beq_iff_eq]

theorem colon_lower (c : Nat) : lower c = 0x3A ↔ c = 0x3A := by
  unfold lower
  split_ifs <;> omega

/-- A name without a colon is a qualified name only if there is no prefix. -/
theorem foldName_iff (c : Ctx) (a : Attr) {n : List Nat} (hc : 0x3A ∉ n) (hl : n.map lower = n) :
    foldName c a = n ↔ a.pre = [] ∧ SameIf (docOf c).html n a.loc := by
  unfold foldName docOf
  dsimp only
  by_cases hp : a.pre = []
  · have hq : a.qname = a.loc := by simp [Attr.qname, hp]
    rw [hq]
    by_cases h : c.type = htmlType
    · rw [if_pos h, sameIf_pos h, low_eq]
      unfold Same
      rw [hl]
      simp [hp, eq_comm]
    · rw [if_neg h, sameIf_neg h]
      simp [hp, eq_comm]
  · have hq : a.qname = a.pre ++ 0x3A :: a.loc := by simp [Attr.qname, hp]
    constructor
    · intro e
      exfalso
      apply hc
      rw [← e, hq]
      split_ifs
      · rw [low_eq]; simp [lower]
      · simp
    · exact fun w => absurd w.1 hp

theorem foldValue_iff {c : Ctx} (a : Attr) {v : List Nat} (hv : c.mode = quirksMode → v.map lower = v) :
    foldValue c a = v ↔ SameIf (docOf c).quirks v a.val := by
  unfold foldValue docOf
  dsimp only
  by_cases h : c.mode = quirksMode
  · rw [if_pos h, sameIf_pos h, low_eq]
    unfold Same
    rw [hv h]; exact eq_comm
  · rw [if_neg h, sameIf_neg h]; exact eq_comm

theorem matchId_any (c : Ctx) (v : List Nat) (as : List Attr) :
    matchId c v as = true ↔ ∃ a ∈ as, foldName c a = idName ∧ foldValue c a = v := by
  induction as with
  | nil => simp [matchId]
  | cons a as ih =>
    rw [matchId]
    split_ifs with h
    · simp [h]
    · rw [ih]; simp [h]

theorem matchClass_any (c : Ctx) (n : List Nat) (as : List Attr) :
    matchClass c n as = true ↔ ∃ a ∈ as, foldName c a = className ∧ ∃ s ∈ pieces (foldValue c a),
      hitClass c n (foldValue c a) s = true := by
  induction as with
  | nil => simp [matchClass]
  | cons a as ih =>
    rw [matchClass]
    split_ifs with h1 h2
    · rw [ih]; simp [h1]
    · simp only [List.any_eq_true] at h2
      simp only [ne_eq, Decidable.not_not] at h1
      simp [h1, h2]
    · simp only [List.any_eq_true] at h2
      rw [ih]; simp [h2]

theorem idName_eq : idName = txt "id" := by decide +kernel
theorem className_eq : className = txt "class" := by decide +kernel

theorem matchId_iff (c : Ctx) {v : List Nat} {as : List Attr} (hv : c.mode = quirksMode → v.map lower = v)
    (ha : CleanAttrs (docOf c) as) : matchId c v as = true ↔
      ∃ a ∈ as, a.ns = [] ∧ SameIf (docOf c).html (txt "id") a.loc ∧ SameIf (docOf c).quirks v a.val := by
  rw [matchId_any, idName_eq]
  apply exists_congr
  intro a
  apply and_congr_right
  intro hm
  rw [foldName_iff c a (by decide +kernel) (by decide +kernel), foldValue_iff a hv, and_assoc]
  constructor
  · rintro ⟨h1, h2, h3⟩
    exact ⟨((ha.2 a hm).1 (Or.inl h2)).mpr h1, h2, h3⟩
  · rintro ⟨h1, h2, h3⟩
    exact ⟨((ha.2 a hm).1 (Or.inl h2)).mp h1, h2, h3⟩

theorem lower_scalar {c : Nat} (h : IsScalar c) : IsScalar (lower c) := by
  unfold lower IsScalar at *
  split_ifs <;> omega

theorem fields_apart {s : List Nat} : ∀ w ∈ fields IsWs s, ∀ c ∈ w, ¬ IsWs c := by
  induction s with
  | nil => simp [fields]
  | cons c s ih =>
    rw [fields]
    by_cases h : IsWs c
    · rw [if_pos h]
      intro w hw
      rcases List.mem_cons.mp hw with rfl | hw
      · simp
      · exact ih w hw
    · rw [if_neg h]
      cases hf : fields IsWs s with
      | nil => exact absurd hf (fields_ne s)
      | cons x xs =>
        rw [hf] at ih
        intro w hw
        rcases List.mem_cons.mp hw with rfl | hw
        · intro d hd
          rcases List.mem_cons.mp hd with rfl | hd
          · exact h
          · exact ih x (by simp) d hd
        · exact ih w (by simp [hw])

theorem fields_whole {s : List Nat} (h : ∀ c ∈ s, ¬ IsWs c) : fields IsWs s = [s] := by
  induction s with
  | nil => rfl
  | cons c s ih => rw [fields, if_neg (h c (by simp)), ih (fun d hd => h d (by simp [hd]))]

theorem words_self (s : List Nat) : s ∈ words s ↔ s ≠ [] ∧ ∀ c ∈ s, ¬ IsWs c := by
  unfold words
  rw [List.mem_filter]
  constructor
  · rintro ⟨h1, h2⟩
    exact ⟨by simpa using h2, fields_apart _ h1⟩
  · rintro ⟨h1, h2⟩
    rw [fields_whole h2]
    simpa using h1

theorem matchClass_plain {c : Ctx} {n : List Nat} {as : List Attr} (hq : c.mode ≠ quirksMode)
    (hs : ∀ a ∈ as, ∀ x ∈ a.val, IsScalar x) : matchClass c n as = true ↔
      ∃ a ∈ as, a.pre = [] ∧ SameIf (docOf c).html (txt "class") a.loc ∧ a.val ≠ [] ∧ ∀ x ∈ a.val, ¬ IsWs x := by
  rw [matchClass_any, className_eq]
  apply exists_congr
  intro a
  apply and_congr_right
  intro hm
  rw [foldName_iff c a (by decide +kernel) (by decide +kernel), and_assoc]
  apply and_congr_right
  intro _
  apply and_congr_right
  intro _
  unfold foldValue hitClass
  rw [if_neg hq, pieces_eq (hs a hm), ← words_self]
  simp [hq]

theorem matchClass_iff {c : Ctx} {n : List Nat} {as : List Attr} (hq : c.mode = quirksMode)
    (ha : CleanAttrs (docOf c) as) : matchClass c n as = true ↔
      ∃ a ∈ as, a.ns = [] ∧ SameIf (docOf c).html (txt "class") a.loc ∧ ∃ w ∈ words a.val, SameIf (docOf c).quirks n w := by
  rw [matchClass_any, className_eq]
  apply exists_congr
  intro a
  apply and_congr_right
  intro hm
  rw [foldName_iff c a (by decide +kernel) (by decide +kernel), and_assoc]
  have hval : (∃ s ∈ pieces (foldValue c a), hitClass c n (foldValue c a) s = true) ↔
      ∃ w ∈ words a.val, SameIf (docOf c).quirks n w := by
    have hs : ∀ x ∈ foldValue c a, IsScalar x := by
      unfold foldValue
      rw [if_pos hq, low_eq]
      intro x hx
      obtain ⟨y, hy, rfl⟩ := List.mem_map.mp hx
      exact lower_scalar ((ha.2 a hm).2 y hy)
    rw [pieces_eq hs]
    unfold foldValue hitClass
    simp only [if_pos hq, low_eq, words_lower, ci_iff]
    have hd : (docOf c).quirks := hq
    simp only [sameIf_pos hd]
    unfold Same
    constructor
    · rintro ⟨s, hs, e⟩
      obtain ⟨w, hw, rfl⟩ := List.mem_map.mp hs
      refine ⟨w, hw, ?_⟩
      rw [map_lower_idem] at e; exact e.symm
    · rintro ⟨w, hw, e⟩
      exact ⟨_, List.mem_map.mpr ⟨w, hw, rfl⟩, by rw [map_lower_idem]; exact e.symm⟩
  rw [hval]
  constructor
  · rintro ⟨h1, h2, h3⟩
    exact ⟨((ha.2 a hm).1 (Or.inr h2)).mpr h1, h2, h3⟩
  · rintro ⟨h1, h2, h3⟩
    exact ⟨((ha.2 a hm).1 (Or.inr h2)).mp h1, h2, h3⟩

theorem findAttr_some {c : Ctx} {o n as a} (h : findAttr c o n as = some a) :
    a ∈ as ∧ nsAttr c o a.ns = true ∧ nameAttr c n a.loc = true := by
  induction as with
  | nil => simp [findAttr] at h
  | cons b as ih =>
    rw [findAttr] at h
    split_ifs at h with hb
    · simp only [Option.some.injEq] at h
      subst h
      simpa using hb
    · obtain ⟨h1, h2⟩ := ih h
      exact ⟨by simp [h1], h2⟩

theorem findAttr_none {c : Ctx} {o n as} (h : findAttr c o n as = none) {a : Attr} (ha : a ∈ as) :
    ¬ (nsAttr c o a.ns = true ∧ nameAttr c n a.loc = true) := by
  induction as with
  | nil => simp at ha
  | cons b as ih =>
    rw [findAttr] at h
    split_ifs at h with hb
    rcases List.mem_cons.mp ha with rfl | ha
    · simpa using hb
    · exact ih h ha

theorem pairwise_eq {α : Type} {R : α → α → Prop} (hs : ∀ a b, R a b → R b a) : ∀ {l : List α}, l.Pairwise R → ∀ {a b}, a ∈ l → b ∈ l → ¬ R a b → a = b := by
  intro l
  induction l with
  | nil => intro _ a b ha; simp at ha
  | cons c l ih =>
    intro h a b ha hb hr
    rw [List.pairwise_cons] at h
    rcases List.mem_cons.mp ha with e | ha'
    · rcases List.mem_cons.mp hb with e' | hb'
      · rw [e, e']
      · rw [e] at hr; exact absurd (h.1 b hb') hr
    · rcases List.mem_cons.mp hb with e' | hb'
      · rw [e'] at hr; exact absurd (hs _ _ (h.1 a ha')) hr
      · exact ih h.2 ha' hb' hr

theorem contains_iff (x s : List Nat) : contains x s = true ↔ x <:+: s := by
  induction s with
  | nil => simp [contains]
  | cons c s ih =>
    rw [contains, Bool.or_eq_true, ih, List.isPrefixOf_iff_prefix, List.infix_cons_iff]

theorem take_prefix (v s : List Nat) : (v.length ≤ s.length ∧ v = s.take v.length) ↔ v <+: s := by
  rw [List.prefix_iff_eq_take]
  constructor
  · exact fun h => h.2
  · intro h
    refine ⟨?_, h⟩
    have := congrArg List.length h
    rw [List.length_take] at this
    omega

theorem take_suffix (v s : List Nat) : (v.length ≤ s.length ∧ v.reverse = s.reverse.take v.length) ↔ v <:+ s := by
  rw [← List.reverse_prefix, ← take_prefix, List.length_reverse, List.length_reverse]

theorem eqMod_iff (i : Bool) (s t : List Nat) : eqMod i s t = true ↔ (if i then s.map lower = t.map lower else s = t) := by
  unfold eqMod
  cases i
  · simp
  · simp [ci_iff, Same]

theorem lower_dash (c : Nat) : c = 0x2D ↔ lower c = 0x2D := by
  unfold lower
  split <;> omega

theorem dash_iff (i : Nat) (v s : List Nat) :
    (decide (v.length < s.length) && eqMod (i == 0x69) v (s.take v.length) && s.getD v.length 0 == 0x2D) = true ↔
      (if i = 0x69 then v.map lower ++ [0x2D] <+: s.map lower else v ++ [0x2D] <+: s) := by
  rw [Bool.and_eq_true, Bool.and_eq_true, eqMod_iff, decide_eq_true_eq]
  simp only [beq_iff_eq]
  have key : ∀ u : List Nat, u.length = v.length → ∀ t : List Nat, t.length = s.length →
      (u ++ [0x2D] <+: t ↔ v.length < s.length ∧ u = t.take v.length ∧ t.getD v.length 0 = 0x2D) := by
    intro u hu t ht
    rw [List.prefix_iff_eq_take]
    constructor
    · intro h
      have hl := congrArg List.length h
      simp only [List.length_append, List.length_take, List.length_singleton] at hl
      have hlt : v.length < t.length := by omega
      refine ⟨by omega, ?_, ?_⟩
      · have := congrArg (List.take v.length) h
        rw [List.take_append_of_le_length (by omega), List.take_take, List.take_of_length_le (by omega)] at this
        rw [this]; congr 1; simp; omega
      · have := congrArg (fun l => l[v.length]?) h
        simp only [List.length_append, List.length_singleton] at this
        rw [← hu, List.getElem?_append_right (by omega), Nat.sub_self, List.getElem?_take_of_lt (by omega)] at this
        rw [List.getD_eq_getElem?_getD, ← hu, ← this]; rfl
    · rintro ⟨h1, h2, h3⟩
      have hlt : v.length < t.length := by omega
      rw [List.length_append, hu, List.length_singleton, List.take_succ, ← h2]
      congr 1
      rw [List.getD_eq_getElem?_getD, List.getElem?_eq_getElem hlt, Option.getD_some] at h3
      rw [List.getElem?_eq_getElem hlt, h3]; rfl
  by_cases hi : i = 0x69
  · simp only [hi, if_true]
    rw [key (v.map lower) (by simp) (s.map lower) (by simp), and_assoc]
    apply and_congr_right
    intro hlt
    rw [List.map_take]
    apply and_congr_right
    intro _
    rw [List.getD_eq_getElem?_getD, List.getD_eq_getElem?_getD, List.getElem?_map, List.getElem?_eq_getElem hlt]
    simp only [Option.map_some, Option.getD_some]
    exact lower_dash _
  · have : (i == 0x69) = false := by simpa using hi
    simp only [this, hi, if_false, Bool.false_eq_true]
    rw [key v rfl s rfl, and_assoc]

theorem matchValue_iff {m : Nat} {v : List Nat} {i : Nat} {s : List Nat} (hs : ∀ c ∈ s, IsScalar c)
    (hm : m ∈ [0, 0x3D, 0x7E, 0x5E, 0x24, 0x2A, 0x7C]) (h0 : m = 0 → v = []) (h1 : m ∈ [0x5E, 0x24, 0x2A] → v ≠ [])
    (h3 : m = 0x7C → ¬ HoldsMod 0x3D v i s) :
    ∃ b, matchValue m v i s = some b ∧ (b = true ↔ HoldsMod m v i s) := by
  have hne : v ≠ [] ↔ v.map lower ≠ [] := by simp
  simp only [List.mem_cons, List.not_mem_nil, or_false] at hm
  rcases hm with rfl | rfl | rfl | rfl | rfl | rfl | rfl
  · refine ⟨true, by simp [matchValue, h0 rfl], ?_⟩
    simp [HoldsMod, Holds]
  · refine ⟨_, rfl, ?_⟩
    rw [eqMod_iff]
    by_cases hi : i = 0x69
    · simp [HoldsMod, Holds, hi]; exact eq_comm
    · simp [HoldsMod, Holds, hi]; exact eq_comm
  · refine ⟨_, rfl, ?_⟩
    rw [pieces_eq hs]
    by_cases hi : i = 0x69
    · simp only [HoldsMod, Holds, hi, beq_self_eq_true, Bool.true_and, if_true, List.any_eq_true, words_lower, Bool.or_eq_true, ci_iff, beq_iff_eq]
      simp only [Nat.reduceEqDiff, false_and, or_false, false_or, true_and, OfNat.ofNat_ne_zero, List.mem_map]
      constructor
      · rintro ⟨x, hx, h | rfl⟩
        · exact ⟨x, hx, h.symm⟩
        · exact ⟨v, hx, rfl⟩
      · rintro ⟨x, hx, h⟩
        exact ⟨x, hx, Or.inl h.symm⟩
    · simp [HoldsMod, Holds, hi]
  · refine ⟨_, rfl, ?_⟩
    have hv := h1 (by simp)
    rw [Bool.and_eq_true, eqMod_iff, decide_eq_true_eq]
    by_cases hi : i = 0x69
    · have := take_prefix (v.map lower) (s.map lower)
      simp only [List.length_map] at this
      simp [HoldsMod, Holds, hi, hv, this]
    · simp [HoldsMod, Holds, hi, hv, take_prefix]
  · refine ⟨_, rfl, ?_⟩
    have hv := h1 (by simp)
    rw [Bool.and_eq_true, eqMod_iff, decide_eq_true_eq]
    by_cases hi : i = 0x69
    · have := take_suffix (v.map lower) (s.map lower)
      simp only [List.length_map] at this
      simp [HoldsMod, Holds, hi, hv, this]
    · simp [HoldsMod, Holds, hi, hv, take_suffix]
  · refine ⟨_, rfl, ?_⟩
    have hv := h1 (by simp)
    by_cases hi : i = 0x69
    · simp [HoldsMod, Holds, hi, hv, low_eq, contains_iff]
    · simp [HoldsMod, Holds, hi, hv, contains_iff]
  · refine ⟨_, rfl, ?_⟩
    rw [dash_iff]
    have h4 := h3 rfl
    by_cases hi : i = 0x69
    · simp only [HoldsMod, Holds, hi, if_true] at h4 ⊢
      simp at h4 ⊢
      simp [h4]
    · simp only [HoldsMod, Holds, hi, if_false] at h4 ⊢
      simp at h4 ⊢
      simp [h4]

theorem matchAttr_iff {c : Ctx} (k : Known c) {o n m v i as} (ha : CleanAttrs (docOf c) as)
    (hm : m ∈ [0, 0x3D, 0x7E, 0x5E, 0x24, 0x2A, 0x7C]) (h0 : m = 0 → v = []) (h1 : m ∈ [0x5E, 0x24, 0x2A] → v ≠ [])
    (h2 : o = some [0x2A] → m = 0) (h3 : m = 0x7C → ∀ a ∈ as, SameIf (docOf c).html n a.loc → ¬ HoldsMod 0x3D v i a.val) :
    ∃ b, (match findAttr c o n as with
      | none => some false
      | some a => matchValue m v i a.val) = some b ∧
      (b = true ↔ ∃ a ∈ as, AttrNs (docOf c) o a.ns ∧ SameIf (docOf c).html n a.loc ∧ HoldsMod m v i a.val) := by
  cases hf : findAttr c o n as with
  | none =>
    refine ⟨false, rfl, ?_⟩
    simp only [Bool.false_eq_true, false_iff, not_exists, not_and]
    intro a hm ho hn
    exact absurd ⟨(nsAttr_iff c o a.ns).mpr ho, (nameAttr_iff k n a.loc).mpr hn⟩ (findAttr_none hf hm)
  | some a =>
    obtain ⟨hma, ho, hn⟩ := findAttr_some hf
    rw [nsAttr_iff] at ho
    rw [nameAttr_iff k] at hn
    obtain ⟨b, hb, hi⟩ := matchValue_iff (i := i) (ha.2 a hma).2 hm h0 h1 (fun q => h3 q a hma hn)
    refine ⟨b, hb, ?_⟩
    rw [hi]
    constructor
    · exact fun h => ⟨a, hma, ho, hn, h⟩
    · rintro ⟨a', hma', ho', hn', h⟩
      by_cases hz : m = 0
      · subst hz; simp [HoldsMod, Holds]
      · have hns : a.ns = a'.ns := by
          have hstar : o ≠ some [0x2A] := fun w => hz (h2 w)
          cases o with
          | none => rw [show a.ns = [] from ho, show a'.ns = [] from ho']
          | some p =>
            have hp : p ≠ [0x2A] := fun w => hstar (by rw [w])
            rcases ho with w | w | w
            · exact absurd w hp
            · rcases ho' with w' | w' | w'
              · exact absurd w' hp
              · rw [w.2, w'.2]
              · exact absurd w.1 w'.2.1
            · rcases ho' with w' | w' | w'
              · exact absurd w' hp
              · exact absurd w'.1 w.2.1
              · have := w.2.2.symm.trans w'.2.2
                simpa using this
        have : a = a' := pairwise_eq (R := fun a b => a.ns = b.ns → ¬ SameIf (docOf c).html a.loc b.loc)
          (fun x y h e s => h e.symm (by
            rcases s with s | s
            · exact Or.inl s.symm
            · exact Or.inr ⟨s.1, same_symm s.2⟩)) ha.1 hma hma' (fun w => w hns (sameIf_join hn hn'))
        rw [this]; exact h

theorem htmlNs_eq : htmlNs = txt "http://www.w3.org/1999/xhtml" := by decide +kernel
theorem htmlName_eq : htmlName = txt "html" := by decide +kernel

theorem matchSimple_iff {c : Ctx} (k : Known c) {f : Forest Node} {x : Nat} {ns pre loc as}
    (hx : valueAt f x = some (.element ns pre loc as)) (ha : CleanAttrs (docOf c) as) {s : Simple} (hs : Clean (docOf c) f s) :
    ∃ b, matchSimple c (.element ns pre loc as) s = some b ∧ (b = true ↔ Fits (docOf c) (Root f x) ns loc as s) := by
  unfold matchSimple
  rw [if_neg (by rw [k.2]; simp)]
  cases s with
  | type o n =>
    refine ⟨_, rfl, ?_⟩
    rw [Bool.and_eq_true, nsType_iff]
    apply and_congr_right
    intro _
    by_cases h : c.type = htmlType
    · rw [if_pos h, sameIf_pos (b := (docOf c).html) h, ci_iff]
    · rw [if_neg h, sameIf_neg (b := (docOf c).html) h, beq_iff_eq]
  | universal o =>
    cases o with
    | none => exact absurd rfl hs
    | some p => exact ⟨_, rfl, nsType_iff c (some p) ns⟩
  | id v => exact ⟨_, rfl, matchId_iff c hs ha⟩
  | cls n => exact ⟨_, rfl, matchClass_iff hs ha⟩
  | attr o n m v i => exact matchAttr_iff k ha hs.1 hs.2.1 hs.2.2.1 hs.2.2.2.1 (fun q => hs.2.2.2.2 q x ns pre loc as hx)
  | pclass n =>
    refine ⟨_, rfl, ?_⟩
    have h1 : (low n == [0x72, 0x6F, 0x6F, 0x74]) = true := by
      rw [low_eq, beq_iff_eq, show n.map lower = _ from hs.1]
      decide +kernel
    rw [h1, Bool.true_and, Fits, ← hs.2 x ns pre loc as hx, Node.isRoot, Bool.and_eq_true, beq_iff_eq, beq_iff_eq, htmlNs_eq, htmlName_eq]
    exact ⟨fun h => ⟨hs.1, h⟩, fun h => h.2⟩
  | pclassFn n a => exact hs.elim
  | pelem n => exact ⟨false, rfl, by simp [Fits]⟩
  | pelemFn n a => exact ⟨false, rfl, by simp [Fits]⟩

theorem matchSimple_other {c : Ctx} (k : Known c) {f : Forest Node} {nd : Node} (hn : nd.isElement = false) {s : Simple}
    (_hs : Clean (docOf c) f s) : matchSimple c nd s = some false := by
  unfold matchSimple
  rw [if_neg (by rw [k.2]; simp)]
  cases nd with
  | element => simp [Node.isElement] at hn
  | document ty mo => cases s <;> first | rfl | simp [Node.isRoot]
  | other => cases s <;> first | rfl | simp [Node.isRoot]

/-- `o` is the truth value of `P`. -/
def Ans (o : Option Bool) (P : Prop) : Prop := ∃ b, o = some b ∧ (b = true ↔ P)

theorem Ans.congr {o P Q} (h : Ans o P) (e : P ↔ Q) : Ans o Q := by
  obtain ⟨b, h1, h2⟩ := h
  exact ⟨b, h1, h2.trans e⟩

theorem ans_false {P : Prop} (h : ¬ P) : Ans (some false) P := ⟨false, rfl, by simp [h]⟩
theorem ans_true {P : Prop} (h : P) : Ans (some true) P := ⟨true, rfl, by simp [h]⟩

theorem matchCompound_elem {c : Ctx} (k : Known c) {f : Forest Node} {x : Nat} {ns pre loc as}
    (hx : valueAt f x = some (.element ns pre loc as)) (ha : CleanAttrs (docOf c) as) {l : List Simple} (hl : ∀ s ∈ l, Clean (docOf c) f s) :
    Ans (matchCompound c (.element ns pre loc as) l) (∀ s ∈ l, Fits (docOf c) (Root f x) ns loc as s) := by
  induction l with
  | nil => exact ans_true (by simp)
  | cons s l ih =>
    obtain ⟨b, hb, hi⟩ := matchSimple_iff k hx ha (hl s (by simp))
    have := ih (fun s' h' => hl s' (by simp [h']))
    rw [matchCompound, hb]
    cases b with
    | false => exact ans_false (fun w => by simpa using hi.mpr (w s (by simp)))
    | true =>
      dsimp only
      apply this.congr
      simp [hi.mp rfl]

theorem matchCompound_other {c : Ctx} (k : Known c) {f : Forest Node} {nd : Node} (hn : nd.isElement = false) {l : List Simple} (hne : l ≠ [])
    (hl : ∀ s ∈ l, Clean (docOf c) f s) : matchCompound c nd l = some false := by
  cases l with
  | nil => exact absurd rfl hne
  | cons s l => rw [matchCompound, matchSimple_other k hn (hl s (by simp))]

theorem matchCompound_iff {c : Ctx} (k : Known c) {f : Forest Node} (hf : CleanTree (docOf c) f) {x : Nat} {nd : Node}
    (hx : valueAt f x = some nd) {l : List Simple} (hne : l ≠ []) (hl : ∀ s ∈ l, Clean (docOf c) f s) :
    Ans (matchCompound c nd l) (FitsAll (docOf c) f l x) := by
  cases hnd : nd with
  | element ns pre loc as =>
    rw [hnd] at hx
    apply (matchCompound_elem k hx (hf x ns pre loc as hx) hl).congr
    constructor
    · exact fun h => ⟨ns, pre, loc, as, hx, h⟩
    · rintro ⟨ns', pre', loc', as', hx', h⟩
      rw [hx] at hx'
      simp only [Option.some.injEq, Node.element.injEq] at hx'
      obtain ⟨rfl, rfl, rfl, rfl⟩ := hx'
      exact h
  | document ty mo =>
    rw [matchCompound_other k (f := f) rfl hne hl]
    apply ans_false
    rintro ⟨ns', pre', loc', as', hx', _⟩
    rw [hx, hnd] at hx'; simp at hx'
  | other =>
    rw [matchCompound_other k (f := f) rfl hne hl]
    apply ans_false
    rintro ⟨ns', pre', loc', as', hx', _⟩
    rw [hx, hnd] at hx'; simp at hx'

end Verif.Proof.Selector
