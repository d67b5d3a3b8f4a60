import Verif.Proof.NamedRef2
/-
The whole look up of named character references.
-/
namespace Verif.Proof.NamedRef
open Verif.Model.Table Verif.Model.Tables.NamedRef Verif.Model.NamedRef Verif.Model.Trie Verif.Spec.HtmlTok
open Verif.Model.Serialize (serialize)
open Verif.Spec.NamedRef (names)

attribute [local irreducible] baseData checkData mapData nameData certData endData nb nc nm heap cr cd names

/-! `string()` is defined. -/

theorem Proper.cd_pos {j : Nat} (h : Proper j) (hd : 0 < cd j) : j ≠ 1 := by
  rintro rfl; rw [root_facts.2.2] at hd; omega

theorem value_loop (n k j res : Nat) (h : Proper j) (hd : n ≤ cd j) : ∃ v, wideValueLoop heap n k j res = some v := by
  induction n generalizing k j res with
  | zero => exact ⟨_, rfl⟩
  | succ n ih =>
    have h1 := h.cd_pos (by omega)
    have nd := h.node h1
    have a1 := nd.parent1; have a2 := nd.parent2; have a3 := nd.base1; have a4 := nd.base2; have a5 := nd.base3
    rw [wideValueLoop, rdC_eq h.pos.2]
    simp only [Option.bind_some]
    rw [if_pos (by rw [len_eq]; omega), Int.toNat_natCast, rdB_eq a2]
    simp only [Option.bind_some]
    rw [if_pos (by rw [len_eq]; omega)]
    exact ih _ _ _ (h.up h1) (by have := nd.depth; omega)

theorem climb_ok (n j : Nat) (h : Proper j) (hd : n ≤ cd j) : ∃ p, climb heap n j = some p ∧ Proper p ∧ cd p = cd j - n := by
  induction n generalizing j with
  | zero => exact ⟨j, rfl, h, rfl⟩
  | succ n ih =>
    have h1 := h.cd_pos (by omega)
    have nd := h.node h1
    have hpos := h.pos
    have hd' := nd.depth
    obtain ⟨p, p1, p2, p3⟩ := ih (nc j) (h.up h1) (by omega)
    refine ⟨p, ?_, p2, by omega⟩
    rw [climb, if_pos hpos.1, rdC_eq hpos.2]
    simp only [Option.bind_some]
    rw [if_pos (by omega), Int.toNat_natCast]
    exact p1

theorem string_loop (n k j : Nat) (h : Proper j) (hd : cd j = 4 * k) (hn : k < n) : ∃ s, stringLoop 4 heap n j = some s := by
  induction n generalizing k j with
  | zero => omega
  | succ n ih =>
    have hpos := h.pos
    rw [stringLoop]
    by_cases h1 : 1 < j
    · rw [if_pos h1]
      have hk : 0 < k := by
        have := (h.node (by omega)).depth
        omega
      obtain ⟨v, hv⟩ := value_loop 4 0 j 0 h (by omega)
      obtain ⟨p, p1, p2, p3⟩ := climb_ok 4 j h (by omega)
      have : wideValue 4 heap j = some v := by
        unfold wideValue; rw [if_pos (by rw [len_eq]; omega), if_neg (by omega)]; exact hv
      have e2 : wideParent 4 heap j = some p := by
        unfold wideParent
        have := p2.pos
        rw [if_neg (by omega), p1, Option.bind_some, if_pos (by rw [len_eq]; exact this)]
      obtain ⟨s, hs⟩ := ih (k - 1) p p2 (by omega) (by omega)
      rw [this, Option.bind_some, e2, Option.bind_some, hs]
      exact ⟨_, rfl⟩
    · rw [if_neg h1]; exact ⟨_, rfl⟩

theorem cd_lt (j : Nat) : cd j < 256 := by
  unfold cd cert raw
  show _ % 1048576 / 4096 < 256
  have := Nat.mod_lt (Nat.shiftRight certData (Nat.mul 20 j)) (show 1048576 > 0 by omega)
  omega

theorem string_ok {t : List Nat} {j : Nat} (h0 : j ≠ 0) (h : reach t 1 = some j) : ∃ s, itString 4 heap j = some s := by
  rcases reach_sound root_proper h with r | ⟨w1, w2, _⟩
  · exact absurd r h0
  · rw [root_facts.2.2, Nat.zero_add] at w2
    have := cd_lt j
    obtain ⟨s, hs⟩ := string_loop (heap.len + 1) t.length j w1 w2 (by rw [len_eq]; omega)
    unfold itString
    rw [hs]
    exact ⟨_, rfl⟩

/-! The result. -/

/-- The code points as the code keeps them: the second is 0 if there is one only. -/
def shown (a b : Nat) : List Nat := if b ≠ 0 then [a, b] else [a]

theorem map_row {r e : Nat} {x : List Nat × List Nat} (h : Row r e x) :
    ∃ i idx a b, Base.valueIndex heap e = some i ∧ Base.readValue heap i = some idx ∧ mapAt idx.toNat = some (a, b) ∧ shown a b = x.2 := by
  have hp := h.proper.pos
  have hacc := h.acc
  have v1 := h.val1; have v2 := h.val2
  have hi : Base.valueIndex heap e = some (valOf e) ∧ valOf e < 33148 := by
    unfold Base.valueIndex valOf
    rw [rdB_eq hp.2]
    simp only [Option.map_some]
    by_cases hb : nb e ≤ 4096
    · rw [if_pos (by omega), show Nat.ble (nb e) 4096 = true from by rw [Nat.ble_eq]; exact hb]
      exact ⟨rfl, hp.2⟩
    · have hbf : Nat.ble (nb e) 4096 = false := by rw [Bool.eq_false_iff, ne_eq, Nat.ble_eq]; exact hb
      rw [if_neg (by omega), hbf]
      unfold acc at hacc
      rw [hbf, Bool.false_or, Bool.and_eq_true, Nat.ble_eq] at hacc
      rw [cond_false, Nat.sub_eq]
      have e1 : ((nb e : Int) - 4096).toNat + nullValue = nb e - 3840 := by
        unfold nullValue; omega
      exact ⟨by rw [e1], by omega⟩
  refine ⟨valOf e, -((nb (valOf e) : Int) - 4096), nv (4096 - nb (valOf e)) % 2 ^ 20, nv (4096 - nb (valOf e)) / 2 ^ 20, hi.1, ?_, ?_, ?_⟩
  · unfold Base.readValue
    rw [rdB_eq hi.2, Option.bind_some, if_pos (by omega)]
  · unfold mapAt
    rw [show (-((nb (valOf e) : Int) - 4096)).toNat = 4096 - nb (valOf e) by omega,
      show mapTbl.size = 2231 from rfl, if_pos (by omega)]
    rfl
  · have := h.points
    generalize nv (4096 - nb (valOf e)) = v at this
    unfold shown
    match hx : x.2 with
    | [] => rw [hx] at this; cases this
    | [a] =>
      rw [hx, pointsOk, Bool.and_eq_true, Nat.beq_eq, blt_iff] at this
      obtain ⟨rfl, hlt⟩ := this
      rw [if_neg (by omega), Nat.mod_eq_of_lt (by omega)]
    | [a, b] =>
      rw [hx, pointsOk, Bool.and_eq_true, Bool.and_eq_true, Nat.beq_eq, blt_iff, blt_iff] at this
      obtain ⟨rfl, h1, h2⟩ := this
      rw [if_pos (by omega), show (a + 1048576 * b) % 2 ^ 20 = a by omega, show (a + 1048576 * b) / 2 ^ 20 = b by omega]
    | a :: b :: c :: l => rw [hx] at this; cases this

theorem longestTo_none (refs : Refs) (s : List Nat) (n : Nat) (h : ∀ k, 0 < k → k ≤ n → ∀ x ∈ refs, x.1 ≠ s.take k) :
    longestTo refs s n = none := by
  induction n with
  | zero => rfl
  | succ n ih =>
    rw [longestTo]
    have : refs.find? (fun r => r.1 == s.take (n + 1)) = none := by
      rw [List.find?_eq_none]
      intro x hx
      simpa using h (n + 1) (by omega) (Nat.le_refl _) x hx
    rw [this]
    exact ih (fun k h1 h2 => h k h1 (by omega))

theorem longestTo_some (refs : Refs) (s : List Nat) (j n : Nat) (h0 : 0 < j) (hj : j ≤ n) (h : ∀ k, j < k → k ≤ n → ∀ x ∈ refs, x.1 ≠ s.take k)
    (hx : ∃ x ∈ refs, x.1 = s.take j) : ∃ x ∈ refs, x.1 = s.take j ∧ longestTo refs s n = some x := by
  induction n with
  | zero => omega
  | succ n ih =>
    rw [longestTo]
    by_cases hjn : j = n + 1
    · subst hjn
      cases hf : refs.find? (fun r => r.1 == s.take (n + 1)) with
      | none =>
        rw [List.find?_eq_none] at hf
        obtain ⟨x, hx, e⟩ := hx
        exact absurd e (by simpa using hf x hx)
      | some x => exact ⟨x, List.mem_of_find?_eq_some hf, by simpa using List.find?_some hf, rfl⟩
    · have : refs.find? (fun r => r.1 == s.take (n + 1)) = none := by
        rw [List.find?_eq_none]
        intro x hx
        simpa using h (n + 1) (by omega) (Nat.le_refl _) x hx
      rw [this]
      exact ih (by omega) (fun k h1 h2 => h k h1 (by omega))

theorem loop_start (s : List Nat) (hs : ∀ c ∈ s, c < 2 ^ 32) (res : Nat × Nat) (h : matchLoop heap s 1 1 0 0 = some res) :
    Best s res.1 res.2 :=
  loop_best s [] 1 1 0 hs rfl ⟨Nat.le_refl _, fun k h1 h2 => by simp at h2; omega, Or.inl ⟨rfl, rfl⟩⟩ res h

/-- If the loop is defined, all is, and gives the longest name. -/
theorem find_of_loop (s : List Nat) (hs : ∀ c ∈ s, c < 2 ^ 32) (res : Nat × Nat) (h : matchLoop heap s 1 1 0 0 = some res) :
    ∃ r, find s = some r ∧ (r.map fun (n, a, b) => (n, shown a b)) = longest names s := by
  have hb := loop_start s hs res h
  obtain ⟨tail, j⟩ := res
  unfold find
  rw [h, Option.bind_some]
  dsimp only
  rcases hb.node with ⟨rfl, rfl⟩ | ⟨h0, h1, h2, h3⟩
  · obtain ⟨st, hst⟩ := string_ok (t := []) (j := 1) (by omega) rfl
    rw [hst, Option.bind_some, parentLoop, if_pos rfl, Option.bind_some]
    refine ⟨none, by rw [if_neg (by simp)], ?_⟩
    unfold longest
    rw [longestTo_none]
    · rfl
    · exact hb.max
  · dsimp only at h0 h1 h2 h3
    obtain ⟨st, hst⟩ := string_ok h1 h2
    obtain ⟨x, hx, e⟩ := name_of_acc (fun c hc => hs c (List.mem_of_mem_take hc)) h2 h1 h3
    obtain ⟨y, hy, e', hl⟩ := longestTo_some names s j s.length h0 hb.le hb.max ⟨x, hx, e⟩
    obtain ⟨r, n, row⟩ := row_mem hy
    have hn := reach_name row
    rw [e', h2] at hn
    injection hn with hn
    subst hn
    obtain ⟨i, idx, a, b, m1, m2, m3, m4⟩ := map_row row
    refine ⟨some (s.take j, a, b), ?_, ?_⟩
    · rw [hst, Option.bind_some, parentLoop, if_neg row.e1, h3]
      simp only [Option.bind_some, if_true]
      rw [if_pos (by omega), m1, Option.bind_some, m2, Option.bind_some, m3]
      rfl
    · unfold longest
      rw [hl]
      show some (s.take j, shown a b) = some y
      rw [m4, ← e']

theorem find_none (s : List Nat) (h : matchLoop heap s 1 1 0 0 = none) : find s = none := by
  unfold find; rw [h]; rfl

/-! Where it is defined. -/

/-- Nothing is read behind the table below a node of names that do not begin with z. -/
theorem walk_defined {cs : List Nat} {p : Nat} (hp : Proper p) (hc : ∀ b ∈ cs, b < 256)
    (hz : ∀ b, (pre (cr p) (cd p) ++ cs)[3]? = some b → b ≠ 0x7A ∧ b ≠ 0x5A) : wideAtLoop heap cs p ≠ none := by
  induction cs generalizing p with
  | nil => simp [wideAtLoop]
  | cons ch cs ih =>
    have hpos := hp.pos
    have hch := hc ch (by simp)
    have hsafe : nb p ≤ 36988 := by
      by_cases h1 : p = 1
      · subst h1; rw [root_facts.1]; omega
      · have nd := hp.node h1
        rcases nd.safe with q | ⟨q1, q2⟩
        · exact q
        · exfalso
          have hd := nd.depth
          have h3 : (pre (cr p) (cd p))[3]? = some (nm (cr p) % 256) := by
            unfold pre
            rw [List.getElem?_map, List.getElem?_range (by omega), Option.map_some]
            rfl
          have := hz (nm (cr p) % 256) (by rw [List.getElem?_append_left (by simp [pre]; omega)]; exact h3)
          omega
    rw [wideAtLoop, rdB_eq hpos.2]
    simp only [Option.bind_some]
    split_ifs with hb
    · simp
    · rw [rdC_eq (by omega)]
      simp only [Option.bind_some]
      split_ifs with hk
      · obtain ⟨q1, q2, q3, q4⟩ := step_down (ch := ch) (idx := ((nb p : Int) - 4096).toNat + ch) hp (by omega) hch (by omega) (by omega) (by omega)
        refine ih q1 (fun b hb => hc b (by simp [hb])) ?_
        rw [q4]
        simpa using hz
      · simp

theorem bytes_third (c : Nat) (l : List Nat) (h : c < 2 ^ 32) (b : Nat) (hb : (bytes (c :: l))[3]? = some b) : b = c % 256 := by
  rw [bytes, List.flatMap_cons, List.getElem?_append_left (by rw [Verif.Proof.Serialize.serialize_length]; omega)] at hb
  rw [Verif.Proof.Serialize.serialize_succ, Verif.Proof.Serialize.serialize_succ, Verif.Proof.Serialize.serialize_succ,
    Verif.Proof.Serialize.serialize_succ] at hb
  simp at hb
  exact hb.symm

/-- The head of the trie: the first character of a walk that goes on. -/
theorem loop_defined (u t : List Nat) (it tail j i : Nat) (hc : ∀ c ∈ t ++ u, c < 2 ^ 32) (hit : reach t 1 = some it)
    (hz : ∀ b, (bytes (t ++ u))[3]? = some b → b ≠ 0x7A ∧ b ≠ 0x5A) : matchLoop heap u it tail j i ≠ none := by
  induction u generalizing t it tail j i with
  | nil => simp [matchLoop]
  | cons c u ih =>
    rw [matchLoop]
    split_ifs with h0
    · simp
    rcases reach_sound root_proper hit with r | ⟨w1, w2, w3⟩
    · exact absurd r h0
    rw [pre_root, List.nil_append] at w3
    have hser := Verif.Proof.Serialize.serialize_bytes 4 c
    have hw : wideAtLoop heap (serialize 4 c) it ≠ none := by
      refine walk_defined w1 hser ?_
      intro b hb
      apply hz b
      rw [w3] at hb
      rw [show bytes (t ++ c :: u) = (bytes t ++ serialize 4 c) ++ bytes u by
        rw [bytes_append, List.append_assoc]; congr 1]
      have hlen : 3 < (bytes t ++ serialize 4 c).length := by
        rw [List.length_append, Verif.Proof.Serialize.serialize_length]; omega
      rw [List.getElem?_append_left hlen]
      exact hb
    rw [wideAt_eq w1.pos]
    cases hq : wideAtLoop heap (serialize 4 c) it with
    | none => exact absurd hq hw
    | some q =>
      rw [Option.bind_some]
      have hr : reach (t ++ [c]) 1 = some q := by
        rw [reach_append, hit, Option.bind_some, reach, if_neg h0, wideAt_eq w1.pos, hq]; rfl
      have hb : ∃ b, itBool heap q = some b := by
        rcases walk_sound w1 hser hq with rfl | ⟨v, _⟩
        · exact ⟨false, by simp [itBool]⟩
        · exact ⟨_, itBool_eq v⟩
      obtain ⟨b, hb⟩ := hb
      rw [hb, Option.bind_some]
      have := fun tail j => ih (t ++ [c]) q tail j (i + 1) (by simpa using hc) hr (by simpa using hz)
      split_ifs
      · exact this _ _
      · exact this _ _

/-- A name walks down to its node, whatever comes then. -/
theorem loop_name (n t rest : List Nat) (it tail j i e : Nat) (hit : reach t 1 = some it) (h0 : it ≠ 0) (hn : reach (t ++ n) 1 = some e) (he : e ≠ 0) :
    ∃ tail' j', matchLoop heap (n ++ rest) it tail j i = matchLoop heap rest e tail' j' (i + n.length) := by
  induction n generalizing t it tail j i with
  | nil =>
    rw [List.append_nil, hit] at hn
    injection hn with hn
    subst hn
    exact ⟨tail, j, rfl⟩
  | cons c n ih =>
    rcases reach_sound root_proper hit with r | ⟨w1, w2, w3⟩
    · exact absurd r h0
    rw [show t ++ c :: n = t ++ [c] ++ n by simp] at hn
    obtain ⟨q, hq, hq0⟩ := reach_prefix hn he
    have hq' := hq
    rw [reach_append, hit, Option.bind_some, reach, if_neg h0] at hq'
    have hw : wideAt 4 heap it c = some q := by
      cases hx : wideAt 4 heap it c with
      | none => rw [hx] at hq'; cases hq'
      | some z => rw [hx] at hq'; exact hq'
    rcases reach_sound root_proper hq with r | ⟨v, _⟩
    · exact absurd r hq0
    rw [List.cons_append, matchLoop, if_neg h0, hw, Option.bind_some, itBool_eq v, Option.bind_some, List.length_cons,
      show i + (n.length + 1) = i + 1 + n.length by omega]
    have := fun tail j => ih (t ++ [c]) q tail j (i + 1) hq hq0 hn
    split_ifs
    · exact this _ _
    · exact this _ _

theorem loop_semi {x : List Nat × List Nat} (hx : x ∈ names) (hl : x.1.getLast? = some 0x3B) (rest : List Nat) :
    matchLoop heap (x.1 ++ rest) 1 1 0 0 ≠ none := by
  obtain ⟨r, e, row⟩ := row_mem hx
  have hp := row.proper.pos
  obtain ⟨tail', j', h⟩ := loop_name x.1 [] rest 1 1 0 0 e rfl (by omega) (reach_name row) (by omega)
  rw [h]
  have hleaf := row.leaf (by rw [List.getLastD_eq_getLast?, hl]; rfl)
  cases rest with
  | nil => simp [matchLoop]
  | cons c rest =>
    rw [matchLoop, if_neg (by omega), wideAt_eq hp, Verif.Proof.Serialize.serialize_succ, wideAtLoop, rdB_eq hp.2]
    simp only [Option.bind_some]
    rw [if_pos (by omega), Option.bind_some, show itBool heap 0 = some false by simp [itBool], Option.bind_some]
    cases rest <;> simp [matchLoop]

theorem leaf_stops {e : Nat} (hp : Proper e) (hl : nb e ≤ 4096) (c : Nat) (l : List Nat) : reach (c :: l) e = some 0 := by
  have hpos := hp.pos
  rw [reach, if_neg (by omega), wideAt_eq hpos, Verif.Proof.Serialize.serialize_succ, wideAtLoop, rdB_eq hpos.2]
  simp only [Option.bind_some]
  rw [if_pos (by omega), Option.bind_some, reach_zero]

theorem points_eq {r e : Nat} {x y : List Nat × List Nat} {q : Nat} (hx : Row r e x) (hy : Row q e y) (h : x.1 = y.1) : x = y := by
  obtain ⟨i, idx, a, b, m1, m2, m3, m4⟩ := map_row hx
  obtain ⟨i', idx', a', b', m1', m2', m3', m4'⟩ := map_row hy
  rw [m1] at m1'; injection m1' with m1'; subst m1'
  rw [m2] at m2'; injection m2' with m2'; subst m2'
  rw [m3] at m3'; injection m3' with m3'
  injection m3' with e1 e2
  subst e1 e2
  exact Prod.ext h (m4.symm.trans m4')

/-- A name that ends in ";" is found, whatever comes behind it. -/
theorem find_semi {x : List Nat × List Nat} (hx : x ∈ names) (hl : x.1.getLast? = some 0x3B) (rest : List Nat) :
    longest names (x.1 ++ rest) = some x := by
  obtain ⟨r, e, row⟩ := row_mem hx
  have hmax : ∀ k, x.1.length < k → k ≤ (x.1 ++ rest).length → ∀ y ∈ names, y.1 ≠ (x.1 ++ rest).take k := by
    intro k h1 h2 y hy e'
    obtain ⟨r', n', row'⟩ := row_mem hy
    have h3 := reach_name row'
    have hp := row'.proper.pos
    rw [List.length_append] at h2
    obtain ⟨c, l, hcl⟩ : ∃ c l, rest.take (k - x.1.length) = c :: l := by
      cases hrest : rest.take (k - x.1.length) with
      | nil => have := congrArg List.length hrest; rw [List.length_take, List.length_nil] at this; omega
      | cons c l => exact ⟨c, l, rfl⟩
    rw [e', List.take_append, List.take_of_length_le (by omega), hcl, reach_append, reach_name row, Option.bind_some,
      leaf_stops row.proper (row.leaf (by rw [List.getLastD_eq_getLast?, hl]; rfl))] at h3
    injection h3 with h3
    omega
  have hp := row.len
  obtain ⟨y, hy, e', hy'⟩ := longestTo_some names (x.1 ++ rest) x.1.length (x.1 ++ rest).length (by omega) (by simp) hmax ⟨x, hx, by simp⟩
  rw [List.take_left] at e'
  obtain ⟨r', n', row'⟩ := row_mem hy
  have h1 := reach_name row
  have h2 := reach_name row'
  rw [e', h1] at h2
  injection h2 with h2
  subst h2
  unfold longest
  rw [hy', points_eq row row' e'.symm]

theorem names_short : ∀ x ∈ names, x.1.length ≤ 32 := fun x hx => by
  obtain ⟨r, e, row⟩ := row_mem hx
  exact row.len.1

theorem walk_stop {h : Heap} {a b : List Nat} {p : Nat} (hp : p ≠ 0) (hw : wideAtLoop h a p = some 0) : wideAtLoop h (a ++ b) p = some 0 := by
  induction a generalizing p with
  | nil => rw [wideAtLoop] at hw; injection hw with hw; exact absurd hw hp
  | cons ch a ih =>
    rw [wideAtLoop] at hw
    rw [List.cons_append, wideAtLoop]
    cases hB : rdB h p with
    | none => rw [hB] at hw; cases hw
    | some base =>
      rw [hB] at hw
      simp only [Option.bind_some] at hw ⊢
      split_ifs at hw ⊢ with h0
      · rfl
      · cases hC : rdC h (base.toNat + ch) with
        | none => rw [hC] at hw; cases hw
        | some c =>
          rw [hC] at hw
          simp only [Option.bind_some] at hw ⊢
          split_ifs at hw ⊢ with h1
          · exact ih (by omega) hw
          · rfl

/-- No name begins with a character above 255, and nothing is read behind the table for one. -/
theorem wide_first (c : Nat) (hc : 256 ≤ c) (h32 : c < 2 ^ 32) : wideAt 4 heap 1 c = some 0 := by
  rw [wideAt_eq ⟨by omega, by omega⟩]
  obtain ⟨x, y, z, w, hs, hx⟩ : ∃ x y z w, serialize 4 c = [x, y, z] ++ [w] ∧ (x ≠ 0 ∨ y ≠ 0 ∨ z ≠ 0) := by
    rw [Verif.Proof.Serialize.serialize_succ, Verif.Proof.Serialize.serialize_succ, Verif.Proof.Serialize.serialize_succ,
      Verif.Proof.Serialize.serialize_succ]
    refine ⟨_, _, _, _, rfl, ?_⟩
    omega
  have hb := Verif.Proof.Serialize.serialize_bytes 4 c
  rw [hs] at hb ⊢
  have hb' : ∀ b ∈ [x, y, z], b < 256 := fun b h => hb b (List.mem_append_left _ h)
  have hd : wideAtLoop heap [x, y, z] 1 ≠ none := by
    refine walk_defined root_proper hb' ?_
    rw [pre_root]
    intro b h
    simp at h
  cases hq : wideAtLoop heap [x, y, z] 1 with
  | none => exact absurd hq hd
  | some q =>
    rcases walk_sound root_proper hb' hq with rfl | ⟨w1, w2, w3⟩
    · exact walk_stop (by omega) hq
    · exfalso
      rw [pre_root, List.nil_append, w2, root_facts.2.2] at w3
      have e : pre (cr q) (0 + [x, y, z].length) = [0, 0, 0] := rfl
      rw [e] at w3
      simp only [List.cons.injEq, and_true] at w3
      omega

theorem loop_not_z (s : List Nat) (hs : ∀ c ∈ s, c < 2 ^ 32) (h1 : s.head? ≠ some 0x7A) (h2 : s.head? ≠ some 0x5A) :
    matchLoop heap s 1 1 0 0 ≠ none := by
  cases s with
  | nil => simp [matchLoop]
  | cons c s =>
    have hc := hs c (by simp)
    have n1 : c ≠ 0x7A := by simpa using h1
    have n2 : c ≠ 0x5A := by simpa using h2
    by_cases hw : c < 256
    · refine loop_defined (c :: s) [] 1 1 0 0 hs rfl ?_
      intro b hb
      have := bytes_third c s hc b hb
      omega
    · rw [matchLoop, if_neg (by omega), wide_first c (by omega) hc, Option.bind_some, show itBool heap 0 = some false by simp [itBool],
        Option.bind_some]
      cases s <;> simp [matchLoop]

end Verif.Proof.NamedRef
