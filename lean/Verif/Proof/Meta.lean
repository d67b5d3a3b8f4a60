import Verif.Model.Meta
import Verif.Spec.Meta
import Verif.Props.Labels
import Mathlib.Data.List.TakeWhile
/- Lemmas for C111. -/
namespace Verif.Proof.Meta
open Verif.Model.Infra Verif.Model.Legacy Verif.Model.Labels Verif.Model.Meta Verif.Spec Verif.Spec.Infra Verif.Spec.Meta
open Verif.Spec.Labels (codes labels)
open Verif.Props.Infra Verif.Props.Labels

theorem ws_iff (c : Nat) : isAsciiWhiteSpace c = true ↔ IsWs c := by
  simp [isAsciiWhiteSpace, IsWs]; grind

theorem lower_ws (c : Nat) : isAsciiWhiteSpace (lower c) = isAsciiWhiteSpace c := by
  unfold lower isAsciiWhiteSpace; split <;> grind

theorem lower_eq {c : Nat} (d : Nat) (hd : ¬ (65 ≤ d ∧ d ≤ 90) ∧ ¬ (97 ≤ d ∧ d ≤ 122)) : lower c = d ↔ c = d := by
  unfold lower; split <;> omega

theorem skip32 (s : List Nat) (hs : ∀ c ∈ s, IsScalar c) :
    skipWhitespace .c32 s = some (s.dropWhile isAsciiWhiteSpace) := by
  have := Verif.Proof.Infra.skip_eq .c32 s hs
  rwa [← Verif.Props.Unicode.formOf_eq, ← Verif.Props.Unicode.formOf_eq, form32, form32] at this

/-- The rest behind `charset =` at the beginning. -/
def opens (s : List Nat) : Option (List Nat) :=
  if (s.take 7).map lower = key then
    match (s.drop 7).dropWhile isAsciiWhiteSpace with
    | c :: r => if c = 61 then some r else none
    | [] => none
  else none

/-- The rest behind the first one. -/
def decl : List Nat → Option (List Nat)
  | [] => none
  | c :: s => match opens (c :: s) with
    | some r => some r
    | none => decl s

theorem drop_ws {w r : List Nat} (hw : ∀ c ∈ w, IsWs c) (hr : ∀ c, r.head? = some c → ¬ IsWs c) :
    (w ++ r).dropWhile isAsciiWhiteSpace = r := by
  induction w with
  | nil =>
    cases r with
    | nil => rfl
    | cons c r =>
      have := hr c rfl
      rw [← ws_iff] at this
      simp [this]
  | cons c w ih =>
    have := hw c (by simp)
    rw [← ws_iff] at this
    simp [this, ih (fun x hx => hw x (by simp [hx]))]

theorem take_ws (s : List Nat) : ∃ w, s = w ++ s.dropWhile isAsciiWhiteSpace ∧ (∀ c ∈ w, IsWs c) ∧
    ∀ c, (s.dropWhile isAsciiWhiteSpace).head? = some c → ¬ IsWs c := by
  refine ⟨s.takeWhile isAsciiWhiteSpace, (List.takeWhile_append_dropWhile).symm, ?_, ?_⟩
  · intro c hc
    exact (ws_iff c).1 (List.mem_takeWhile_imp hc)
  · intro c hc h
    have := List.head?_dropWhile_not isAsciiWhiteSpace s
    rw [hc] at this
    simp [(ws_iff c).2 h] at this

theorem opens_iff (s r : List Nat) : opens s = some r ↔ Opens s r := by
  constructor
  · intro h
    unfold opens at h
    split at h
    · rename_i hk
      split at h
      · rename_i c r' hd
        split at h
        · rename_i hc
          cases h
          subst hc
          obtain ⟨w, h1, h2, _⟩ := take_ws (s.drop 7)
          rw [hd] at h1
          refine ⟨s.take 7, w, ?_, ?_, h2⟩
          · rw [List.append_assoc, ← h1, List.take_append_drop]
          · rw [hk]; decide
        · cases h
      · cases h
    · cases h
  · rintro ⟨k, w, rfl, hk, hw⟩
    have hl : k.length = 7 := by
      have := congrArg List.length hk
      rw [List.length_map] at this
      rw [this]; decide
    have e1 : (k ++ w ++ 61 :: r).take 7 = k := by
      rw [List.append_assoc, ← hl, List.take_left]
    have e2 : (k ++ w ++ 61 :: r).drop 7 = w ++ 61 :: r := by
      rw [List.append_assoc, ← hl, List.drop_left]
    unfold opens
    rw [e1, e2, hk, drop_ws hw (by simp [IsWs])]
    simp only [if_true]
    rw [if_pos (by decide)]

theorem decl_iff (s r : List Nat) : decl s = some r ↔ FirstDecl s r := by
  induction s with
  | nil =>
    simp only [decl, reduceCtorEq, false_iff]
    rintro ⟨pre, m, h1, ⟨k, w, h2, _⟩, _⟩
    rw [h2] at h1
    simp at h1
  | cons c s ih =>
    unfold decl
    cases ho : opens (c :: s) with
    | some r' =>
      simp only [Option.some.injEq]
      constructor
      · rintro rfl
        exact ⟨[], c :: s, rfl, (opens_iff _ _).1 ho, by simp⟩
      · rintro ⟨pre, m, h1, h2, h3⟩
        have := h3 [] (c :: s) rfl ⟨r', (opens_iff _ _).1 ho⟩
        have hp : pre = [] := List.eq_nil_of_length_eq_zero (by simpa using this)
        subst hp
        simp only [List.nil_append] at h1
        subst h1
        have := (opens_iff _ _).2 h2
        rw [ho] at this
        cases this; rfl
    | none =>
      simp only
      rw [ih]
      constructor
      · rintro ⟨pre, m, h1, h2, h3⟩
        refine ⟨c :: pre, m, by simp [h1], h2, ?_⟩
        rintro pre' m' e ⟨x, hx⟩
        cases pre' with
        | nil =>
          simp only [List.nil_append] at e
          rw [← e] at hx
          have := (opens_iff _ _).2 hx
          rw [ho] at this; cases this
        | cons d pre' =>
          simp only [List.cons_append, List.cons.injEq] at e
          have := h3 pre' m' e.2 ⟨x, hx⟩
          simpa using this
      · rintro ⟨pre, m, h1, h2, h3⟩
        cases pre with
        | nil =>
          simp only [List.nil_append] at h1
          subst h1
          have := (opens_iff _ _).2 h2
          rw [ho] at this; cases this
        | cons d pre =>
          simp only [List.cons_append, List.cons.injEq] at h1
          refine ⟨pre, m, h1.2, h2, ?_⟩
          intro pre' m' e hx
          have := h3 (c :: pre') m' (by simp [e]) hx
          simpa using this

theorem map_drop_ws (s : List Nat) :
    (s.map lower).dropWhile isAsciiWhiteSpace = (s.dropWhile isAsciiWhiteSpace).map lower := by
  induction s with
  | nil => rfl
  | cons c s ih =>
    simp only [List.map_cons, List.dropWhile_cons, lower_ws]
    split
    · exact ih
    · simp

theorem lower_lower (c : Nat) : lower (lower c) = lower c := (C32_case_maps c).1

theorem opens_lower (s : List Nat) : opens (s.map lower) = (opens s).map (List.map lower) := by
  unfold opens
  rw [← List.map_take, ← List.map_drop, map_drop_ws, List.map_map]
  have : lower ∘ lower = lower := funext lower_lower
  rw [this]
  split
  · cases h : (s.drop 7).dropWhile isAsciiWhiteSpace with
    | nil => rfl
    | cons c r =>
      simp only [List.map_cons, lower_eq 61 (by omega)]
      split <;> rfl
  · rfl

theorem decl_lower (s : List Nat) : decl (s.map lower) = (decl s).map (List.map lower) := by
  induction s with
  | nil => rfl
  | cons c s ih =>
    rw [List.map_cons, decl, decl, ← List.map_cons, opens_lower]
    cases opens (c :: s) with
    | none => simpa using ih
    | some r => rfl

/-- A text in lowercase. -/
def Low (s : List Nat) : Prop := ∀ c ∈ s, lower c = c

theorem low_map {s : List Nat} (h : Low s) : s.map lower = s := by
  induction s with
  | nil => rfl
  | cons c s ih => simp [h c (by simp), ih (fun x hx => h x (by simp [hx]))]

theorem opens_key {s : List Nat} (hs : Low s) (h : key.isPrefixOf s = false) : opens s = none := by
  unfold opens
  rw [if_neg]
  intro e
  rw [low_map (fun c hc => hs c (List.mem_of_mem_take hc))] at e
  have : key.isPrefixOf s = true := by
    rw [List.isPrefixOf_iff_prefix, ← e]
    exact List.take_prefix _ _
  rw [h] at this; cases this

theorem search_none {s : List Nat} (hs : Low s) (h : search s = none) : decl s = none := by
  induction s with
  | nil => rfl
  | cons c s ih =>
    rw [search] at h
    split at h
    · cases h
    · rename_i hk
      rw [decl, opens_key hs (Bool.eq_false_iff.2 hk)]
      exact ih (fun x hx => hs x (by simp [hx])) h

theorem decl_skip {t s : List Nat} (ht : ∀ c ∈ t, lower c ≠ 99) : decl (t ++ s) = decl s := by
  induction t with
  | nil => rfl
  | cons c t ih =>
    rw [List.cons_append, decl]
    have : opens (c :: (t ++ s)) = none := by
      unfold opens
      rw [if_neg]
      intro e
      have h99 := ht c (by simp)
      simp [key, h99] at e
    rw [this]
    exact ih (fun x hx => ht x (by simp [hx]))

theorem decl_none_tail {c : Nat} {s : List Nat} (h : opens (c :: s) = none) : decl (c :: s) = decl s := by
  rw [decl, h]

theorem search_some {s p : List Nat} (hs : Low s) (h : search s = some p) :
    ∃ pre, s = pre ++ (key ++ p) ∧ decl s = decl (key ++ p) := by
  induction s with
  | nil => simp [search] at h
  | cons c s ih =>
    rw [search] at h
    split at h
    · rename_i hk
      cases h
      refine ⟨[], ?_, ?_⟩
      · rw [List.nil_append]
        rw [List.isPrefixOf_iff_prefix] at hk
        obtain ⟨t, ht⟩ := hk
        rw [← ht]; rfl
      · rw [List.isPrefixOf_iff_prefix] at hk
        obtain ⟨t, ht⟩ := hk
        rw [← ht]; rfl
    · rename_i hk
      obtain ⟨pre, h1, h2⟩ := ih (fun x hx => hs x (by simp [hx])) h
      exact ⟨c :: pre, by simp [h1], by
        rw [decl, opens_key hs (Bool.eq_false_iff.2 hk)]; exact h2⟩

/-- What is left once `charset` and the white space have been passed. -/
def next (f : List Nat → Option (List Nat)) : List Nat → Option (List Nat)
  | [] => none
  | c :: r => if c = 61 then some r else f (c :: r)

/-- The rest of the loop once `charset` has been found. -/
theorem decl_key {p w q : List Nat} (hp : p = w ++ q) (hw : ∀ c ∈ w, IsWs c)
    (hq : ∀ c, q.head? = some c → ¬ IsWs c) :
    decl (key ++ p) = next decl q := by
  have hk : opens (key ++ p) = next (fun _ => none) q := by
    unfold opens
    rw [hp, show (key ++ (w ++ q)).take 7 = key from rfl, show (key ++ (w ++ q)).drop 7 = w ++ q from rfl, drop_ws hw hq,
      if_pos (by decide)]
    cases q <;> rfl
  have htail : decl ([104, 97, 114, 115, 101, 116] ++ p) = decl q := by
    rw [hp, ← List.append_assoc, decl_skip]
    intro c hc
    simp only [List.mem_append] at hc
    rcases hc with hc | hc
    · simp at hc
      rcases hc with rfl | rfl | rfl | rfl | rfl | rfl <;> decide
    · have := hw c hc
      simp [IsWs] at this
      rcases this with rfl | rfl | rfl | rfl | rfl <;> decide
  have hc : key ++ p = 99 :: ([104, 97, 114, 115, 101, 116] ++ p) := rfl
  rw [hc, decl, ← hc, hk]
  cases q with
  | nil => exact htail
  | cons c r =>
    simp only [next]
    by_cases h : c = 61
    · simp [h]
    · simp only [if_neg h]; exact htail

theorem loop_eq (n : Nat) : ∀ s : List Nat, s.length ≤ n → Low s → (∀ c ∈ s, IsScalar c) →
    loop s = match decl s with
      | none => some none
      | some r => value r := by
  induction n with
  | zero =>
    intro s hl _ _
    have : s = [] := List.eq_nil_of_length_eq_zero (by omega)
    subst this
    rw [loop]; rfl
  | succ n ih =>
    intro s hl hs hsc
    rw [loop]
    split
    · rename_i h
      rw [search_none hs h]
    · rename_i p h
      obtain ⟨pre, h1, h2⟩ := search_some hs h
      have hpm : ∀ c ∈ p, c ∈ s := by intro c hc; rw [h1]; simp [hc]
      have hlen := search_length h
      obtain ⟨w, e1, e2, e3⟩ := take_ws p
      have hsk := skip32 p (fun c hc => hsc c (hpm c hc))
      have hd := decl_key e1 e2 e3
      rw [h2, hd]
      generalize hq : p.dropWhile isAsciiWhiteSpace = q at *
      split
      · rename_i h'; rw [hsk] at h'; cases h'
      · rename_i h'; rw [hsk] at h'; cases h'
        rw [ih [] (by simp) (by intro c hc; cases hc) (by simp)]; rfl
      · rename_i c r h'; rw [hsk] at h'; cases h'
        have hcm : ∀ x ∈ c :: r, x ∈ s := by
          intro x hx
          apply hpm
          rw [e1]
          exact List.mem_append_right _ hx
        have hl' : (c :: r).length ≤ p.length := by
          conv => rhs; rw [e1]
          simp
        by_cases hc : c = 61
        · simp only [next, if_pos hc]
        · simp only [next, if_neg hc]
          exact ih _ (by omega) (fun x hx => hs x (hcm x hx)) (fun x hx => hsc x (hcm x hx))

theorem name_lower (v : List Nat) (hv : ∀ c ∈ v, IsScalar c) (hw : v = [] ∨ ∃ c ∈ v, ¬ IsWs c) :
    getEncodingName (v.map lower) = getEncodingName v := by
  have hl : ∀ c, IsScalar c → IsScalar (lower c) := by
    intro c h; unfold lower; unfold IsScalar at *; split <;> omega
  have wl : ∀ c, IsWs (lower c) ↔ IsWs c := by intro c; rw [← ws_iff, ← ws_iff, lower_ws]
  obtain ⟨t, h1, h2⟩ := name_eq v hv hw
  obtain ⟨u, h3, h4⟩ := name_eq (v.map lower) (by
    intro c hc; obtain ⟨d, hd, rfl⟩ := List.mem_map.1 hc; exact hl d (hv d hd)) (by
    rcases hw with rfl | ⟨c, hc, hn⟩
    · exact .inl rfl
    · exact .inr ⟨lower c, List.mem_map.2 ⟨c, hc, rfl⟩, fun h => hn ((wl c).1 h)⟩)
  have : IsTrim (v.map lower) (t.map lower) := by
    obtain ⟨l, r, g1, g2, g3, g4, g5, g6⟩ := h1
    refine ⟨l.map lower, r.map lower, by simp [g1], ?_, ?_, ?_, ?_, ?_⟩
    · intro c hc; obtain ⟨d, hd, rfl⟩ := List.mem_map.1 hc; exact (wl d).2 (g2 d hd)
    · intro c hc; obtain ⟨d, hd, rfl⟩ := List.mem_map.1 hc; exact (wl d).2 (g3 d hd)
    · intro c hc
      rw [List.head?_map] at hc
      obtain ⟨d, hd, rfl⟩ := Option.map_eq_some_iff.1 hc
      exact fun h => g4 d hd ((wl d).1 h)
    · intro c hc
      rw [List.getLast?_map] at hc
      obtain ⟨d, hd, rfl⟩ := Option.map_eq_some_iff.1 hc
      exact fun h => g5 d hd ((wl d).1 h)
    · intro h; rw [g6 (by simpa using h)]; rfl
  obtain rfl := C28_trim_unique _ _ _ h3 this
  rw [h2, h4, List.map_map]
  have : lower ∘ lower = lower := funext lower_lower
  rw [this]

/-- Step 6 finds the value. -/
theorem value_some {r v : List Nat} (hr : ∀ c ∈ r, IsScalar c) (h : Value r v) :
    value (r.map lower) = getEncodingName (v.map lower) ∧ ∀ c ∈ v, c ∈ r := by
  have hl : ∀ c ∈ r.map lower, IsScalar c := by
    intro c hc; obtain ⟨d, hd, rfl⟩ := List.mem_map.1 hc
    have := hr d hd
    unfold lower; unfold IsScalar at *; split <;> omega
  unfold value
  rw [skip32 _ hl, map_drop_ws]
  cases h with
  | quoted w q v r hw hq hv =>
    have hq1 : lower q = q := by rcases hq with rfl | rfl <;> decide
    have hq2 : ∀ c, lower c = q ↔ c = q := by
      intro c; rcases hq with rfl | rfl
      · exact lower_eq 34 (by omega)
      · exact lower_eq 39 (by omega)
    rw [drop_ws hw (by intro c hc; simp at hc; subst hc; rcases hq with rfl | rfl <;> simp [IsWs])]
    simp only [List.map_cons, List.map_append, hq1, if_pos hq]
    rw [if_pos (by simp)]
    refine ⟨?_, by intro c hc; simp [hc]⟩
    congr 1
    rw [List.takeWhile_append_of_pos]
    · simp
    · intro c hc
      obtain ⟨d, hd, rfl⟩ := List.mem_map.1 hc
      simp only [bne_iff_ne, ne_eq, hq2]
      rintro rfl
      exact hv hd
  | bare w v r hw hv hh hr' =>
    rw [List.append_assoc, drop_ws hw (fun c hc => (hh c hc).2.2)]
    have key' : ((v ++ r).map lower).takeWhile (fun c => !(c == 59 || isAsciiWhiteSpace c)) = v.map lower := by
      rw [List.map_append, List.takeWhile_append_of_pos]
      · cases r with
        | nil => simp
        | cons c r =>
          have := hr' c rfl
          rw [List.map_cons, List.takeWhile_cons_of_neg]
          · simp
          · rw [lower_ws]
            have h59 := lower_eq (c := c) 59 (by omega)
            rw [← ws_iff] at this
            rcases this with h | h
            · simp [h59.2 h]
            · simp [h]
      · intro c hc
        obtain ⟨d, hd, rfl⟩ := List.mem_map.1 hc
        have := hv d hd
        have h59 := lower_eq (c := d) 59 (by omega)
        rw [lower_ws]
        rw [← ws_iff] at this
        simp [h59, this]
    refine ⟨?_, by intro c hc; simp [hc]⟩
    cases hvr : v ++ r with
    | nil =>
      have : v = [] := (List.append_eq_nil_iff.1 hvr).1
      subst this
      simp only [List.map_nil]
      decide +kernel
    | cons c x =>
      rw [hvr] at key' hh
      have := hh c rfl
      simp only [List.map_cons] at key' ⊢
      rw [if_neg (by rw [lower_eq 34 (by omega), lower_eq 39 (by omega)]; omega), key']

/-- Without a value there is no encoding. -/
theorem value_none {r : List Nat} (hr : ∀ c ∈ r, IsScalar c) (h : ¬ ∃ v, Value r v) : value (r.map lower) = some none := by
  have hl : ∀ c ∈ r.map lower, IsScalar c := by
    intro c hc; obtain ⟨d, hd, rfl⟩ := List.mem_map.1 hc
    have := hr d hd
    unfold lower; unfold IsScalar at *; split <;> omega
  unfold value
  rw [skip32 _ hl, map_drop_ws]
  obtain ⟨w, e1, e2, e3⟩ := take_ws r
  cases hq : r.dropWhile isAsciiWhiteSpace with
  | nil => rfl
  | cons q p =>
    rw [hq] at e1 e3
    simp only [List.map_cons]
    by_cases hqq : q = 34 ∨ q = 39
    · have hq1 : lower q = q := by rcases hqq with rfl | rfl <;> decide
      have hq2 : ∀ c, lower c = q ↔ c = q := by
        intro c; rcases hqq with rfl | rfl
        · exact lower_eq 34 (by omega)
        · exact lower_eq 39 (by omega)
      rw [hq1, if_pos hqq, if_neg]
      intro hm
      obtain ⟨d, hd, hdq⟩ := List.mem_map.1 hm
      rw [hq2] at hdq
      subst hdq
      obtain ⟨a, b, rfl, hab⟩ := List.eq_append_cons_of_mem hd
      exact h ⟨a, by rw [e1]; exact .quoted w _ a b e2 hqq hab⟩
    · exfalso
      apply h
      let f : Nat → Bool := fun c => !(c == 59 || isAsciiWhiteSpace c)
      refine ⟨(q :: p).takeWhile f, ?_⟩
      have hsplit : w ++ (q :: p).takeWhile f ++ (q :: p).dropWhile f = r := by
        rw [List.append_assoc, List.takeWhile_append_dropWhile]; exact e1.symm
      rw [← hsplit]
      refine .bare w _ _ e2 ?_ ?_ ?_
      · intro c hc
        have := List.mem_takeWhile_imp hc
        simp only [f, Bool.not_eq_true', Bool.or_eq_false_iff, beq_eq_false_iff_ne] at this
        exact ⟨this.1, fun hw => by rw [(ws_iff c).2 hw] at this; cases this.2⟩
      · rw [List.takeWhile_append_dropWhile]
        intro c hc
        have h3 := e3 c hc
        simp only [List.head?_cons, Option.some.injEq] at hc
        subst hc
        exact ⟨fun h => hqq (.inl h), fun h => hqq (.inr h), h3⟩
      · intro c hc
        have := List.head?_dropWhile_not f (q :: p)
        rw [hc] at this
        simp only [f, Bool.not_eq_true', Bool.not_eq_false', Bool.or_eq_true, beq_iff_eq] at this
        rw [ws_iff] at this
        exact this

theorem extract_eq (s : List Nat) (hs : ∀ c ∈ s, IsScalar c) :
    extract s = match decl s with
      | none => some none
      | some r => value (r.map lower) := by
  unfold extract
  have h := C32_lowercase .c32 .c32 s hs
  rw [form32, form32] at h
  rw [h]
  simp only
  rw [loop_eq _ _ (Nat.le_refl _) (by
    intro c hc; obtain ⟨d, _, rfl⟩ := List.mem_map.1 hc; exact lower_lower d) (by
    intro c hc; obtain ⟨d, hd, rfl⟩ := List.mem_map.1 hc
    have := hs d hd
    unfold lower; unfold IsScalar at *; split <;> omega), decl_lower]
  cases decl s <;> rfl

theorem decl_mem {s r : List Nat} (h : FirstDecl s r) : ∀ c ∈ r, c ∈ s := by
  obtain ⟨pre, m, rfl, ⟨k, w, rfl, _⟩, _⟩ := h
  intro c hc
  simp [hc]

end Verif.Proof.Meta
