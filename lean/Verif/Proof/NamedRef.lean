import Verif.Proof.NamedRefCheck1
import Verif.Proof.NamedRefCheck2
import Verif.Proof.NamedRefCheck3
import Verif.Proof.NamedRefCheck7
import Verif.Proof.Serialize
import Verif.Proof.TrieWide
import Mathlib.Tactic.SplitIfs
/-
Walks in the trie of named character references spell names of the standard.
-/
namespace Verif.Proof.NamedRef
open Verif.Model.Table Verif.Model.Tables.NamedRef Verif.Model.NamedRef Verif.Model.Trie Verif.Spec.HtmlTok
open Verif.Model.Serialize (serialize)
open Verif.Spec.NamedRef (names)

attribute [local irreducible] baseData checkData mapData nameData certData endData

theorem all_nodes (j : Nat) (h2 : 2 ≤ j) (hj : j < 33148) : nodeOk j = true := by
  by_cases h : j < 11051
  · exact nodesOk_spec _ _ nodes1 j h2 (by omega)
  by_cases h' : j < 22100
  · exact nodesOk_spec _ _ nodes2 j (by omega) (by omega)
  · exact nodesOk_spec _ _ nodes3 j (by omega) (by omega)

/-- The root, and the nodes behind a byte. -/
def Proper (j : Nat) : Prop := j = 1 ∨ (2 ≤ j ∧ j < 33148 ∧ j + 3840 ≠ nb (nc j))

/-- What the check says of a node behind a byte. -/
structure Node (j : Nat) : Prop where
  parent1 : 1 ≤ nc j
  parent2 : nc j < 33148
  base1 : 4096 < nb (nc j)
  base2 : nb (nc j) ≤ j + 4096
  base3 : nb (nc j) < 37244
  depth : cd j = cd (nc j) + 1
  row : cr j < 2231
  label : j + 4096 = nb (nc j) + byte (cr j) (cd (nc j))
  inside : 0 < nm (cr j) >>> (8 * (cd (nc j) / 4))
  same : nm (cr j) % 2 ^ (8 * (cd (nc j) / 4)) = nm (cr (nc j)) % 2 ^ (8 * (cd (nc j) / 4))
  stop : cd (nc j) % 4 = 3 → acc j = true → nm (cr j) >>> (8 * (cd (nc j) / 4) + 8) = 0
  safe : nb j ≤ 36988 ∨ (3 ≤ cd (nc j) ∧ (nm (cr j) % 256 = 0x7A ∨ nm (cr j) % 256 = 0x5A))

theorem blt_iff (a b : Nat) : Nat.blt a b = true ↔ a < b := by
  unfold Nat.blt; rw [Nat.ble_eq]; omega

theorem Proper.node {j : Nat} (h : Proper j) (h1 : j ≠ 1) : Node j := by
  rcases h with h | ⟨h2, h3, h4⟩
  · exact absurd h h1
  have := all_nodes j h2 h3
  unfold nodeOk inner at this
  simp only [Bool.and_eq_true, Bool.or_eq_true, blt_iff, Nat.ble_eq, Nat.beq_eq, Bool.not_eq_true'] at this
  obtain ⟨a1, a2, a3, a4, a5, a6⟩ := this
  rcases a6 with ⟨a6, _⟩ | ⟨b1, b2, b3, b4, b5, b6, b7⟩
  · exact absurd a6 h4
  refine ⟨a1, a2, a3, a4, a5, b1, b2, b3, b4, b5, ?_, b7⟩
  intro q1 q2
  rcases b6 with b6 | b6 | b6
  · exact absurd b6 (by show ¬ cd (nc j) % 4 < 3; omega)
  · rw [q2] at b6; cases b6
  · exact b6

theorem root_facts : nb 1 = 4098 ∧ nc 1 = 0 ∧ cd 1 = 0 := by decide +kernel

/-- The parent of a proper node is proper: nodes of values have no children. -/
theorem Proper.up {j : Nat} (h : Proper j) (h1 : j ≠ 1) : Proper (nc j) := by
  have n := h.node h1
  by_cases hp : nc j = 1
  · exact Or.inl hp
  have := n.parent1
  refine Or.inr ⟨by omega, n.parent2, fun e => ?_⟩
  have := all_nodes (nc j) (by omega) n.parent2
  unfold nodeOk inner at this
  simp only [Bool.and_eq_true, Bool.or_eq_true, blt_iff, Nat.ble_eq, Nat.beq_eq, Bool.not_eq_true'] at this
  obtain ⟨a1, a2, a3, a4, a5, a6⟩ := this
  rcases a6 with ⟨_, a6⟩ | ⟨b1, b2, b3, b4, b5, b6, b7⟩
  · have := n.base1; omega
  · have hb : byte (cr (nc j)) (cd (nc (nc j))) < 256 := by
      unfold byte chr
      cases Nat.beq (Nat.mod (cd (nc (nc j))) 4) 3
      · show 0 < 256; omega
      · exact Nat.mod_lt _ (by omega)
    have b3' : nc j + 4096 = nb (nc (nc j)) + byte (cr (nc j)) (cd (nc (nc j))) := b3
    omega

theorem Proper.pos {j : Nat} (h : Proper j) : 1 ≤ j ∧ j < 33148 := by
  rcases h with h | ⟨h, h', _⟩ <;> omega

theorem base_eq (j : Nat) : heap.base j = (nb j : Int) - 4096 := rfl
theorem check_eq (j : Nat) : heap.check j = (nc j : Int) := rfl
theorem len_eq : heap.len = 33148 := rfl

attribute [local irreducible] nb nc nm heap cr cd

theorem rdB_eq {j : Nat} (h : j < 33148) : rdB heap j = some ((nb j : Int) - 4096) := by
  unfold rdB; rw [if_pos (by rw [len_eq]; exact h), base_eq]
theorem rdC_eq {j : Nat} (h : j < 33148) : rdC heap j = some (nc j : Int) := by
  unfold rdC; rw [if_pos (by rw [len_eq]; exact h), check_eq]

/-- The first `d` bytes of a name. -/
def pre (r d : Nat) : List Nat := (List.range d).map (byte r)

theorem pre_succ (r d : Nat) : pre r (d + 1) = pre r d ++ [byte r d] := by
  unfold pre; rw [List.range_succ, List.map_append]; rfl

theorem chr_same {a b e k : Nat} (h : a % 2 ^ e = b % 2 ^ e) (hk : 8 * k + 8 ≤ e) : a >>> (8 * k) % 256 = b >>> (8 * k) % 256 := by
  apply Nat.eq_of_testBit_eq
  intro i
  have e256 : (256 : Nat) = 2 ^ 8 := rfl
  rw [e256, Nat.testBit_mod_two_pow, Nat.testBit_mod_two_pow, Nat.testBit_shiftRight, Nat.testBit_shiftRight]
  by_cases hi : i < 8
  · have := congrArg (fun x => x.testBit (8 * k + i)) h
    simp only [Nat.testBit_mod_two_pow] at this
    rw [decide_eq_true (show 8 * k + i < e by omega)] at this
    simpa using by rw [show (a.testBit (8 * k + i)) = b.testBit (8 * k + i) by simpa using this]
  · simp [hi]

theorem pre_same {a b d : Nat} (h : nm a % 2 ^ (8 * (d / 4)) = nm b % 2 ^ (8 * (d / 4))) : pre a d = pre b d := by
  unfold pre
  apply List.map_congr_left
  intro k hk
  rw [List.mem_range] at hk
  unfold byte
  by_cases hm : k % 4 = 3
  · rw [show Nat.beq (Nat.mod k 4) 3 = true from by rw [Nat.beq_eq]; exact hm]
    exact chr_same h (by show 8 * (k / 4) + 8 ≤ _; omega)
  · rw [show Nat.beq (Nat.mod k 4) 3 = false from by rw [Bool.eq_false_iff, ne_eq, Nat.beq_eq]; exact hm]
    rfl

/-- One byte down. -/
theorem step_down {p idx ch : Nat} (hp : Proper p) (hi : idx < 33148) (hc : ch < 256) (hb : idx + 4096 = nb p + ch) (h4 : 4096 < nb p)
    (hk : nc idx = p) :
    Proper idx ∧ idx ≠ 1 ∧ cd idx = cd p + 1 ∧ pre (cr idx) (cd idx) = pre (cr p) (cd p) ++ [ch] := by
  have hpos := hp.pos
  have h1 : idx ≠ 1 := by
    rintro rfl
    rw [root_facts.2.1] at hk; omega
  have hpr : Proper idx := by
    refine Or.inr ⟨by omega, hi, ?_⟩
    rw [hk]; omega
  have n := hpr.node h1
  refine ⟨hpr, h1, by rw [n.depth, hk], ?_⟩
  rw [n.depth, pre_succ, pre_same n.same, hk]
  congr 2
  have := n.label
  rw [hk] at this
  omega

theorem walk_sound {cs : List Nat} {p j : Nat} (hp : Proper p) (hc : ∀ b ∈ cs, b < 256) (h : wideAtLoop heap cs p = some j) :
    j = 0 ∨ (Proper j ∧ cd j = cd p + cs.length ∧ pre (cr j) (cd j) = pre (cr p) (cd p) ++ cs) := by
  induction cs generalizing p with
  | nil =>
    rw [wideAtLoop] at h
    injection h with h; subst h
    exact Or.inr ⟨hp, by simp, by simp⟩
  | cons ch cs ih =>
    have hpos := hp.pos
    rw [wideAtLoop, rdB_eq hpos.2] at h
    simp only [Option.bind_some] at h
    split_ifs at h with hb
    · injection h with h; exact Or.inl h.symm
    · by_cases hi : ((nb p : Int) - 4096).toNat + ch < 33148
      · rw [rdC_eq hi] at h
        simp only [Option.bind_some] at h
        split_ifs at h with hk
        · obtain ⟨q1, q2, q3, q4⟩ := step_down hp hi (hc ch (by simp)) (by omega) (by omega) (by omega)
          rcases ih q1 (fun b hb => hc b (by simp [hb])) h with r | ⟨r1, r2, r3⟩
          · exact Or.inl r
          · exact Or.inr ⟨r1, by rw [r2, q3, List.length_cons]; omega, by rw [r3, q4]; simp⟩
        · injection h with h; exact Or.inl h.symm
      · unfold rdC at h
        rw [if_neg (by rw [len_eq]; exact hi)] at h
        cases h

theorem walk_append {h : Heap} {a b : List Nat} {p q : Nat} (hw : wideAtLoop h a p = some q) (hq : q ≠ 0) :
    wideAtLoop h (a ++ b) p = wideAtLoop h b q := by
  induction a generalizing p with
  | nil => rw [wideAtLoop] at hw; injection hw with hw; rw [hw]; rfl
  | cons ch a ih =>
    rw [wideAtLoop] at hw
    rw [List.cons_append, wideAtLoop]
    cases hB : rdB h p with
    | none => rw [hB] at hw; cases hw
    | some base =>
      rw [hB] at hw
      simp only [Option.bind_some] at hw ⊢
      split_ifs at hw ⊢ with h0
      · injection hw with hw; exact absurd hw.symm hq
      · cases hC : rdC h (base.toNat + ch) with
        | none => rw [hC] at hw; cases hw
        | some c =>
          rw [hC] at hw
          simp only [Option.bind_some] at hw ⊢
          split_ifs at hw ⊢ with h1
          · exact ih hw
          · injection hw with hw; exact absurd hw.symm hq

theorem walk_split {h : Heap} {a b : List Nat} {p e : Nat} (hw : wideAtLoop h (a ++ b) p = some e) (he : e ≠ 0) (hp : p ≠ 0) :
    ∃ q, q ≠ 0 ∧ wideAtLoop h a p = some q ∧ wideAtLoop h b q = some e := by
  induction a generalizing p with
  | nil => exact ⟨p, hp, rfl, hw⟩
  | cons ch a ih =>
    rw [List.cons_append, wideAtLoop] at hw
    rw [wideAtLoop]
    cases hB : rdB h p with
    | none => rw [hB] at hw; cases hw
    | some base =>
      rw [hB] at hw
      simp only [Option.bind_some] at hw ⊢
      split_ifs at hw ⊢ with h0
      · injection hw with hw; exact absurd hw.symm he
      · cases hC : rdC h (base.toNat + ch) with
        | none => rw [hC] at hw; cases hw
        | some c =>
          rw [hC] at hw
          simp only [Option.bind_some] at hw ⊢
          split_ifs at hw ⊢ with h1
          · exact ih hw (by omega)
          · injection hw with hw; exact absurd hw.symm he

/-- Every proper node is reached from the root. -/
theorem walk_complete (d j : Nat) (hj : Proper j) (hd : cd j = d) : wideAtLoop heap (pre (cr j) d) 1 = some j := by
  induction d generalizing j with
  | zero =>
    have : j = 1 := by
      by_contra h1
      have := (hj.node h1).depth
      omega
    rw [this]; rfl
  | succ d ih =>
    have h1 : j ≠ 1 := by rintro rfl; rw [root_facts.2.2] at hd; omega
    have n := hj.node h1
    have hdp : cd (nc j) = d := by have := n.depth; omega
    have hp := hj.up h1
    have := ih (nc j) hp hdp
    have hpos := hp.pos
    rw [pre_succ, show pre (cr j) d = pre (cr (nc j)) d from by have := pre_same n.same; rwa [hdp] at this]
    rw [walk_append this (by omega), wideAtLoop, rdB_eq hpos.2]
    have b1 := n.base1
    have lab := n.label
    rw [hdp] at lab
    have hidx : ((nb (nc j) : Int) - 4096).toNat + byte (cr j) d = j := by omega
    have hj' := hj.pos
    simp only [Option.bind_some]
    rw [if_neg (by omega), hidx, rdC_eq hj'.2]
    simp only [Option.bind_some, if_true]
    rfl

end Verif.Proof.NamedRef
