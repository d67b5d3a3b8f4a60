import Verif.Proof.NamedRef
import Verif.Proof.HtmlTokSim6
/-
The look up of named character references: it is the look up of the standard, where it is defined.
-/
namespace Verif.Proof.NamedRef
open Verif.Model.Table Verif.Model.Tables.NamedRef Verif.Model.NamedRef Verif.Model.Trie Verif.Spec.HtmlTok
open Verif.Model.Serialize (serialize)
open Verif.Spec.NamedRef (names)

attribute [local irreducible] baseData checkData mapData nameData certData endData nb nc nm heap cr cd names

/-! Rows. -/

/-- What the check says of a row. -/
structure Row (r e : Nat) (x : List Nat × List Nat) : Prop where
  name : nm r = enc x.1
  chars : ∀ c ∈ x.1, 0 < c ∧ c < 256
  printed : ∀ c ∈ x.1, 47 < c
  proper : Proper e
  e1 : e ≠ 1
  row : cr e = r
  depth : cd e = 4 * x.1.length
  acc : acc e = true
  val1 : nb (valOf e) ≤ 4096
  val2 : 1865 < nb (valOf e)
  points : pointsOk (nv (4096 - nb (valOf e))) x.2 = true
  leaf : x.1.getLastD 0 = 0x3B → nb e ≤ 4096
  len : x.1.length ≤ 32 ∧ 0 < x.1.length

theorem row_of {r e : Nat} {x : List Nat × List Nat} (h : rowOk r e x = true) : Row r e x := by
  unfold rowOk at h
  simp only [Bool.and_eq_true, Bool.or_eq_true, blt_iff, Nat.ble_eq, Nat.beq_eq, Bool.not_eq_true', List.all_eq_true] at h
  obtain ⟨a1, a2, a3, a4, a5, a6, a7, a8, a9, a10, a11, a12, a13⟩ := h
  have a5' : ¬ e + 3840 = nb (nc e) := by
    intro q
    rw [show Nat.beq (Nat.add e 3840) (nb (nc e)) = true from by rw [Nat.beq_eq]; exact q] at a5
    cases a5
  refine ⟨a1, fun c hc => ⟨by have := (a2 c hc).1; omega, (a2 c hc).2⟩, fun c hc => (a2 c hc).1, Or.inr ⟨by omega, a4, a5'⟩, by omega, a6, a7, a8, a9, a10, a11, ?_, a13⟩
  intro q
  rcases a12 with a12 | a12
  · rw [show Nat.beq (x.1.getLastD 0) 59 = true from by rw [Nat.beq_eq]; exact q] at a12
    cases a12
  · exact a12

theorem rows_get (l : Refs) (r : Nat) (h : rowsOk l r 2231 = true) :
    r + l.length = 2231 ∧ ∀ k (hk : k < l.length), Row (r + k) (ends (r + k)) l[k] := by
  induction l generalizing r with
  | nil =>
    rw [rowsOk, Nat.beq_eq] at h
    exact ⟨h, fun k hk => absurd hk (by simp)⟩
  | cons x l ih =>
    rw [rowsOk, Bool.and_eq_true] at h
    obtain ⟨a, b⟩ := ih _ h.2
    have a' : r + 1 + l.length = 2231 := a
    refine ⟨by rw [List.length_cons]; omega, fun k hk => ?_⟩
    cases k with
    | zero => exact row_of h.1
    | succ k =>
      have := b k (by simpa using hk)
      rw [show Nat.succ r + k = r + (k + 1) by omega] at this
      exact this

theorem names_length : names.length = 2231 := by have := (rows_get names 0 rows).1; omega

theorem row_at {r : Nat} (h : r < 2231) : ∃ x ∈ names, Row r (ends r) x := by
  have hl : r < names.length := by rw [names_length]; exact h
  have := (rows_get names 0 rows).2 r hl
  rw [Nat.zero_add] at this
  exact ⟨_, List.getElem_mem hl, this⟩

theorem row_mem {x : List Nat × List Nat} (h : x ∈ names) : ∃ r e, Row r e x := by
  obtain ⟨k, hk, rfl⟩ := List.getElem_of_mem h
  exact ⟨_, _, (rows_get names 0 rows).2 k hk⟩

/-! Names as numbers. -/

theorem enc_shift (l : List Nat) (h : ∀ c ∈ l, 0 < c ∧ c < 256) (k : Nat) : enc l >>> (8 * k) = enc (l.drop k) := by
  induction k generalizing l with
  | zero => simp
  | succ k ih =>
    cases l with
    | nil => simp [enc]
    | cons c l =>
      have hc := h c (by simp)
      rw [List.drop_succ_cons, ← ih l (fun x hx => h x (by simp [hx])), show 8 * (k + 1) = 8 + 8 * k by omega, Nat.shiftRight_add]
      congr 1
      rw [Nat.shiftRight_eq_div_pow, enc]
      omega

theorem enc_pos (l : List Nat) (h : ∀ c ∈ l, 0 < c ∧ c < 256) : 0 < enc l ↔ l ≠ [] := by
  cases l with
  | nil => simp [enc]
  | cons c l =>
    have hc := h c (by simp)
    simp only [enc, ne_eq, reduceCtorEq, not_false_eq_true, iff_true]
    omega

theorem chr_row {r e : Nat} {x : List Nat × List Nat} (h : Row r e x) (k : Nat) (hk : k < x.1.length) : chr r k = x.1[k] := by
  show nm r >>> (8 * k) % 256 = _
  rw [h.name, enc_shift _ h.chars, List.drop_eq_getElem_cons hk, enc]
  have := (h.chars x.1[k] (List.getElem_mem hk)).2
  omega

theorem serialize4 (c : Nat) (h : c < 256) : serialize 4 c = [0, 0, 0, c] := by
  rw [Verif.Proof.Serialize.serialize_succ, Verif.Proof.Serialize.serialize_succ, Verif.Proof.Serialize.serialize_succ,
    Verif.Proof.Serialize.serialize_succ]
  rw [show serialize 0 c = [] from rfl]
  simp only [List.cons.injEq, and_true]
  refine ⟨?_, ?_, ?_, ?_⟩ <;> omega

/-- The bytes of a text. -/
def bytes (t : List Nat) : List Nat := t.flatMap (serialize 4)

theorem bytes_length (t : List Nat) : (bytes t).length = 4 * t.length := by
  induction t with
  | nil => rfl
  | cons c t ih =>
    rw [bytes, List.flatMap_cons, List.length_append, Verif.Proof.Serialize.serialize_length, ← bytes, ih, List.length_cons]
    omega

theorem bytes_append (a b : List Nat) : bytes (a ++ b) = bytes a ++ bytes b := List.flatMap_append

theorem bytes_lt (t : List Nat) : ∀ b ∈ bytes t, b < 256 := by
  intro b hb
  obtain ⟨c, _, hc⟩ := List.mem_flatMap.mp hb
  exact Verif.Proof.Serialize.serialize_bytes 4 c b hc

theorem bytes_inj {a b : List Nat} (ha : ∀ c ∈ a, c < 2 ^ 32) (hb : ∀ c ∈ b, c < 2 ^ 32) (h : bytes a = bytes b) : a = b := by
  induction a generalizing b with
  | nil =>
    have := congrArg List.length h
    rw [bytes_length, bytes_length] at this
    exact (List.length_eq_zero_iff.mp (by rw [List.length_nil] at this; omega)).symm
  | cons x a ih =>
    cases b with
    | nil =>
      have := congrArg List.length h
      rw [bytes_length, bytes_length] at this
      simp at this
    | cons y b =>
      rw [bytes, bytes, List.flatMap_cons, List.flatMap_cons] at h
      obtain ⟨h1, h2⟩ := List.append_inj h (by rw [Verif.Proof.Serialize.serialize_length, Verif.Proof.Serialize.serialize_length])
      rw [Verif.Proof.Trie.serialize_inj (ha x (by simp)) (hb y (by simp)) h1,
        ih (fun c hc => ha c (by simp [hc])) (fun c hc => hb c (by simp [hc])) h2]

theorem pre_row {r e : Nat} {x : List Nat × List Nat} (h : Row r e x) (k : Nat) (hk : k ≤ x.1.length) :
    pre r (4 * k) = bytes (x.1.take k) := by
  induction k with
  | zero => rfl
  | succ k ih =>
    rw [show 4 * (k + 1) = 4 * k + 1 + 1 + 1 + 1 by omega, pre_succ, pre_succ, pre_succ, pre_succ, ih (by omega),
      List.take_add_one, bytes_append]
    have hb : ∀ i, i < 3 → byte r (4 * k + i) = 0 := by
      intro i hi
      unfold byte
      rw [show Nat.beq (Nat.mod (4 * k + i) 4) 3 = false from by
        rw [Bool.eq_false_iff, ne_eq, Nat.beq_eq]; show ¬ (4 * k + i) % 4 = 3; omega]
      rfl
    have hb3 : byte r (4 * k + 3) = chr r k := by
      unfold byte
      rw [show Nat.beq (Nat.mod (4 * k + 3) 4) 3 = true from by rw [Nat.beq_eq]; show (4 * k + 3) % 4 = 3; omega]
      show chr r ((4 * k + 3) / 4) = _
      rw [show (4 * k + 3) / 4 = k by omega]
    have e0 : byte r (4 * k) = 0 := hb 0 (by omega)
    rw [e0, show 4 * k + 1 + 1 + 1 = 4 * k + 3 by omega, hb3, hb 1 (by omega), show 4 * k + 1 + 1 = 4 * k + 2 by omega, hb 2 (by omega),
      chr_row h k (by omega), List.getElem?_eq_getElem (by omega)]
    have hc := h.chars _ (List.getElem_mem (show k < x.1.length by omega))
    have hs : bytes [x.1[k]] = [0, 0, 0, x.1[k]] := by
      unfold bytes
      rw [List.flatMap_cons, List.flatMap_nil, serialize4 _ hc.2]; rfl
    show _ = _ ++ bytes [x.1[k]]
    rw [hs]
    simp

/-! Walks by characters. -/

def reach : List Nat → Nat → Option Nat
  | [], i => some i
  | c :: cs, i => if i = 0 then some 0 else (wideAt 4 heap i c).bind (reach cs)

theorem reach_zero (t : List Nat) : reach t 0 = some 0 := by cases t <;> rfl

theorem reach_append (a b : List Nat) (i : Nat) : reach (a ++ b) i = (reach a i).bind (reach b) := by
  induction a generalizing i with
  | nil => rfl
  | cons c a ih =>
    rw [List.cons_append, reach, reach]
    split_ifs
    · rw [Option.bind_some, reach_zero]
    · cases wideAt 4 heap i c with
      | none => rfl
      | some q => simp only [Option.bind_some]; exact ih q

theorem wideAt_eq {i : Nat} (h : 1 ≤ i ∧ i < 33148) (c : Nat) : wideAt 4 heap i c = wideAtLoop heap (serialize 4 c) i := by
  unfold wideAt
  rw [if_neg (by omega), if_pos (by rw [len_eq]; exact h)]

theorem reach_sound {t : List Nat} {p j : Nat} (hp : Proper p) (h : reach t p = some j) :
    j = 0 ∨ (Proper j ∧ cd j = cd p + 4 * t.length ∧ pre (cr j) (cd j) = pre (cr p) (cd p) ++ bytes t) := by
  induction t generalizing p with
  | nil =>
    rw [reach] at h; injection h with h; subst h
    exact Or.inr ⟨hp, by simp, by simp [bytes]⟩
  | cons c t ih =>
    have hpos := hp.pos
    rw [reach, if_neg (by omega), wideAt_eq hpos] at h
    cases hw : wideAtLoop heap (serialize 4 c) p with
    | none => rw [hw] at h; cases h
    | some q =>
      rw [hw, Option.bind_some] at h
      rcases walk_sound hp (Verif.Proof.Serialize.serialize_bytes 4 c) hw with rfl | ⟨w1, w2, w3⟩
      · rw [reach_zero] at h; injection h with h; exact Or.inl h.symm
      · rcases ih w1 h with r | ⟨r1, r2, r3⟩
        · exact Or.inl r
        · refine Or.inr ⟨r1, ?_, ?_⟩
          · rw [r2, w2, Verif.Proof.Serialize.serialize_length, List.length_cons]; omega
          · rw [r3, w3, bytes, bytes, List.flatMap_cons, List.append_assoc]

theorem reach_of_walk {t : List Nat} {p e : Nat} (hp : Proper p) (h : wideAtLoop heap (bytes t) p = some e) (he : e ≠ 0) :
    reach t p = some e := by
  induction t generalizing p with
  | nil => exact h
  | cons c t ih =>
    have hpos := hp.pos
    rw [bytes, List.flatMap_cons] at h
    obtain ⟨q, hq, h1, h2⟩ := walk_split h he (by omega)
    rcases walk_sound hp (Verif.Proof.Serialize.serialize_bytes 4 c) h1 with r | ⟨w1, _, _⟩
    · exact absurd r hq
    · rw [reach, if_neg (by omega), wideAt_eq hpos, h1, Option.bind_some]
      exact ih w1 h2

theorem root_proper : Proper 1 := Or.inl rfl

theorem pre_root : pre (cr 1) (cd 1) = [] := by rw [root_facts.2.2]; rfl

/-- Names lead to their nodes. -/
theorem reach_name {r e : Nat} {x : List Nat × List Nat} (h : Row r e x) : reach x.1 1 = some e := by
  have h1 := walk_complete (4 * x.1.length) e h.proper h.depth
  rw [h.row, pre_row h _ (Nat.le_refl _), List.take_length] at h1
  have := h.proper.pos
  exact reach_of_walk root_proper h1 (by omega)

theorem itBool_eq {j : Nat} (h : Proper j) : itBool heap j = some (decide (j ≠ 1) && acc j) := by
  have hp := h.pos
  unfold itBool
  by_cases h1 : j = 1
  · subst h1; rw [if_pos (by omega)]; rfl
  · rw [if_neg (by omega), rdB_eq hp.2, decide_eq_true h1, Bool.true_and]
    simp only [Option.map_some]
    congr 1
    unfold acc
    by_cases hb : nb j ≤ 4096
    · rw [if_pos (by omega), show Nat.ble (nb j) 4096 = true from by rw [Nat.ble_eq]; exact hb]; rfl
    · rw [if_neg (by omega), show Nat.ble (nb j) 4096 = false from by rw [Bool.eq_false_iff, ne_eq, Nat.ble_eq]; exact hb, Bool.false_or]
      have e1 : ((nb j : Int) - 4096).toNat + nullValue = nb j - 3840 := by
        unfold nullValue; omega
      rw [e1, len_eq, check_eq]
      by_cases hl : nb j ≤ 36987
      · rw [show Nat.ble (nb j) 36987 = true from by rw [Nat.ble_eq]; exact hl, Bool.true_and, Bool.eq_iff_iff, decide_eq_true_iff,
          Nat.beq_eq]
        show _ ↔ nc (nb j - 3840) = j
        omega
      · rw [show Nat.ble (nb j) 36987 = false from by rw [Bool.eq_false_iff, ne_eq, Nat.ble_eq]; exact hl, Bool.false_and,
          decide_eq_false_iff_not]
        omega

/-- Nodes at the end of a name are reached by names only. -/
theorem name_of_acc {t : List Nat} {j : Nat} (ht : ∀ c ∈ t, c < 2 ^ 32) (h : reach t 1 = some j) (h0 : j ≠ 0)
    (hb : itBool heap j = some true) : ∃ x ∈ names, x.1 = t := by
  rcases reach_sound root_proper h with r | ⟨w1, w2, w3⟩
  · exact absurd r h0
  rw [itBool_eq w1, Option.some.injEq, Bool.and_eq_true, decide_eq_true_iff] at hb
  have n := w1.node hb.1
  obtain ⟨x, hx, row⟩ := row_at n.row
  refine ⟨x, hx, ?_⟩
  rw [root_facts.2.2, Nat.zero_add] at w2
  rw [pre_root, List.nil_append, w2] at w3
  have hd := n.depth
  have hlen : x.1.length = t.length := by
    have i1 := n.inside
    have i2 := n.stop (by omega) hb.2
    rw [row.name, enc_shift _ row.chars, enc_pos _ (fun c hc => row.chars c (List.mem_of_mem_drop hc)), ne_eq, List.drop_eq_nil_iff] at i1
    rw [show 8 * (cd (nc j) / 4) + 8 = 8 * (cd (nc j) / 4 + 1) by omega, row.name, enc_shift _ row.chars] at i2
    have i3 : x.1.drop (cd (nc j) / 4 + 1) = [] := by
      by_contra hne
      have := (enc_pos _ (fun c hc => row.chars c (List.mem_of_mem_drop hc))).mpr hne
      omega
    rw [List.drop_eq_nil_iff] at i3
    omega
  rw [← hlen, pre_row row _ (Nat.le_refl _), List.take_length] at w3
  exact bytes_inj (fun c hc => by have := (row.chars c hc).2; omega) ht w3

/-! The loop. -/

/-- `j` is the length of the longest name in front of `t`, `tail` its node. -/
structure Best (t : List Nat) (tail j : Nat) : Prop where
  le : j ≤ t.length
  max : ∀ k, j < k → k ≤ t.length → ∀ x ∈ names, x.1 ≠ t.take k
  node : (j = 0 ∧ tail = 1) ∨ (0 < j ∧ tail ≠ 0 ∧ reach (t.take j) 1 = some tail ∧ itBool heap tail = some true)

theorem best_more {t u : List Nat} {tail j : Nat} (h : Best t tail j) (hu : ∀ k, t.length < k → k ≤ (t ++ u).length → ∀ x ∈ names, x.1 ≠ (t ++ u).take k) :
    Best (t ++ u) tail j := by
  refine ⟨by rw [List.length_append]; have := h.le; omega, ?_, ?_⟩
  · intro k h1 h2 x hx
    by_cases hk : k ≤ t.length
    · rw [List.take_append_of_le_length hk]; exact h.max k h1 hk x hx
    · exact hu k (by omega) h2 x hx
  · rcases h.node with q | ⟨q0, q1, q2, q3⟩
    · exact Or.inl q
    · exact Or.inr ⟨q0, q1, by rw [List.take_append_of_le_length h.le]; exact q2, q3⟩

theorem reach_prefix {a b : List Nat} {e : Nat} (h : reach (a ++ b) 1 = some e) (he : e ≠ 0) : ∃ q, reach a 1 = some q ∧ q ≠ 0 := by
  rw [reach_append] at h
  cases ha : reach a 1 with
  | none => rw [ha] at h; cases h
  | some q =>
    refine ⟨q, rfl, ?_⟩
    rintro rfl
    rw [ha, Option.bind_some, reach_zero] at h
    injection h with h
    exact he h.symm

theorem not_name_of_zero {t : List Nat} (h : reach t 1 = some 0) (b : List Nat) : ∀ x ∈ names, x.1 ≠ t ++ b := by
  intro x hx e
  obtain ⟨r, n, row⟩ := row_mem hx
  have h1 := reach_name row
  have := row.proper.pos
  rw [e] at h1
  obtain ⟨q, q1, q2⟩ := reach_prefix h1 (by omega)
  rw [h] at q1
  injection q1 with q1
  exact q2 q1.symm

theorem loop_best (u t : List Nat) (it tail j : Nat) (hc : ∀ c ∈ t ++ u, c < 2 ^ 32) (hit : reach t 1 = some it) (hb : Best t tail j)
    (res : Nat × Nat) (h : matchLoop heap u it tail j t.length = some res) : Best (t ++ u) res.1 res.2 := by
  induction u generalizing t it tail j with
  | nil =>
    rw [matchLoop] at h; injection h with h; subst h
    rw [List.append_nil]; exact hb
  | cons c u ih =>
    rw [matchLoop] at h
    split_ifs at h with h0
    · injection h with h; subst h
      subst h0
      apply best_more hb
      intro k h1 _
      rw [List.take_append, List.take_of_length_le (by omega)]
      exact not_name_of_zero hit _
    · have hp : Proper it := by
        rcases reach_sound root_proper hit with r | ⟨w, _⟩
        · exact absurd r h0
        · exact w
      cases hw : wideAt 4 heap it c with
      | none => rw [hw] at h; cases h
      | some q =>
        rw [hw, Option.bind_some] at h
        have hq : reach (t ++ [c]) 1 = some q := by
          rw [reach_append, hit, Option.bind_some, reach, if_neg h0, hw]; rfl
        have hcc : ∀ x ∈ t ++ [c], x < 2 ^ 32 := fun x hx => hc x (by
          rcases List.mem_append.mp hx with hx | hx
          · simp [hx]
          · simp only [List.mem_singleton] at hx; simp [hx])
        have hl : (t ++ [c]).length = t.length + 1 := by simp
        rw [show t ++ c :: u = t ++ [c] ++ u by simp]
        cases hbl : itBool heap q with
        | none => rw [hbl] at h; cases h
        | some b =>
          rw [hbl, Option.bind_some] at h
          have hbest : b = false → Best (t ++ [c]) tail j := by
            rintro rfl
            apply best_more hb
            intro k h1 h2 x hx e
            have : k = (t ++ [c]).length := by omega
            subst this
            rw [List.take_length] at e
            obtain ⟨r, n, row⟩ := row_mem hx
            have h3 := reach_name row
            rw [e, hq] at h3
            injection h3 with h3
            subst h3
            rw [itBool_eq row.proper, row.acc, decide_eq_true row.e1] at hbl
            cases hbl
          cases b with
          | true =>
            rw [if_pos rfl] at h
            have hq0 : q ≠ 0 := by
              rintro rfl
              simp [itBool] at hbl
            refine ih (t ++ [c]) q q (t.length + 1) (by simpa using hc) hq ?_ (by rw [hl]; exact h)
            refine ⟨by omega, fun k h1 h2 => by omega, Or.inr ⟨by omega, hq0, ?_, hbl⟩⟩
            rw [← hl, List.take_length]; exact hq
          | false =>
            rw [if_neg (by simp)] at h
            exact ih (t ++ [c]) q tail j (by simpa using hc) hq (hbest rfl) (by rw [hl]; exact h)

end Verif.Proof.NamedRef
