import Verif.Model.TrieIO
import Verif.Props.Serialize
import Verif.Proof.TrieStable

/-! Lemmas about saving and loading tries. -/
namespace Verif.Proof.Trie
open Verif.Model.Trie Verif.Model.Serialize Verif.Proof.Serialize Verif.Props.Serialize

/-- Both fields fit `std::int32_t`. -/
def FitsNode (n : Int × Int) : Prop :=
  (-(2 ^ (8 * 4 - 1) : Nat) ≤ n.1 ∧ n.1 < (2 ^ (8 * 4 - 1) : Nat)) ∧
  (-(2 ^ (8 * 4 - 1) : Nat) ≤ n.2 ∧ n.2 < (2 ^ (8 * 4 - 1) : Nat))

theorem toUnsigned_lt (x : Int) : toUnsigned 4 x < 2 ^ (8 * 4) := by unfold toUnsigned; omega

theorem fromTo (x : Int) (h : -(2 ^ (8 * 4 - 1) : Nat) ≤ x ∧ x < (2 ^ (8 * 4 - 1) : Nat)) :
    fromUnsigned 4 (toUnsigned 4 x) = x := by
  unfold fromUnsigned toUnsigned; norm_num at *; split <;> omega

theorem words_lt (ns) : ∀ x ∈ words ns, x < 2 ^ (8 * 4) := by
  intro x hx
  obtain ⟨n, _, h⟩ := List.mem_flatMap.mp hx
  simp only [List.mem_cons, List.not_mem_nil, or_false] at h
  rcases h with rfl | rfl <;> exact toUnsigned_lt _

theorem words_cons (n ns) : words (n :: ns) = toUnsigned 4 n.1 :: toUnsigned 4 n.2 :: words ns := by
  simp [words]

theorem words_length (ns : List (Int × Int)) : (words ns).length = 2 * ns.length := by
  induction ns with
  | nil => rfl
  | cons n ns ih => rw [words_cons]; simp [ih]; omega

theorem save_eq (ns : List (Int × Int)) :
    save ns = some (serialize 8 (ns.length * 8 % 2 ^ 64) ++ (words ns).flatMap (serialize 4)) := by
  unfold save
  rw [run_eq 4 (by decide) (by decide) (words ns) 0 rfl]
  rfl

/-- One node is read back. -/
theorem loadLoop_cons (n : Nat) (x : Int × Int) (hx : FitsNode x) (s : List Nat) :
    loadLoop (n + 1) (serialize 4 (toUnsigned 4 x.1) ++ (serialize 4 (toUnsigned 4 x.2) ++ s)) =
      (x :: (loadLoop n s).1, (loadLoop n s).2) := by
  have hl := serialize_length 4 (toUnsigned 4 x.1)
  cases e : serialize 4 (toUnsigned 4 x.1) with
  | nil => rw [e] at hl; simp at hl
  | cons c t =>
    rw [List.cons_append]
    simp only [loadLoop]
    rw [← List.cons_append, ← e, C22_round_trip 4 _ (toUnsigned_lt _)]
    dsimp only
    rw [C22_round_trip 4 _ (toUnsigned_lt _)]
    dsimp only
    rw [fromTo _ hx.1, fromTo _ hx.2]

theorem loadLoop_append (ns : List (Int × Int)) (hf : ∀ n ∈ ns, FitsNode n) (k : Nat) (s : List Nat) :
    loadLoop (ns.length + k) ((words ns).flatMap (serialize 4) ++ s) =
      (ns ++ (loadLoop k s).1, (loadLoop k s).2) := by
  induction ns with
  | nil => simp [words]
  | cons n ns ih =>
    rw [words_cons, List.flatMap_cons, List.flatMap_cons, List.append_assoc, List.append_assoc,
      show (n :: ns).length + k = (ns.length + k) + 1 by simp; omega,
      loadLoop_cons _ _ (hf n (by simp)), ih (fun m hm => hf m (by simp [hm]))]
    rfl

theorem load_save (ns : List (Int × Int)) (hf : ∀ n ∈ ns, FitsNode n) (hl : ns.length < 2 ^ 31) (s : List Nat) :
    ∃ bs, save ns = some bs ∧ load (bs ++ s) =
      (ns ++ (loadLoop (7 * ns.length) s).1, (loadLoop (7 * ns.length) s).2) := by
  refine ⟨_, save_eq ns, ?_⟩
  have hlt : ns.length * 8 % 2 ^ 64 = ns.length * 8 := Nat.mod_eq_of_lt (by omega)
  rw [hlt]
  unfold load
  rw [List.append_assoc, C22_round_trip 8 _ (by norm_num; omega)]
  dsimp only
  rw [show ns.length * 8 = ns.length + 7 * ns.length by omega]
  exact loadLoop_append ns hf _ s

theorem loadLoop_nil (n) : loadLoop n [] = ([], []) := by cases n <;> rfl

theorem foldInts_serialize (x : Nat) (hx : x < 2 ^ 32) (s : List Nat) :
    foldInts 4 0 (serialize 4 x ++ s) = (x, s) := by
  have : ∀ k v t, foldInts k v t = deserializeLoop 4 k v t := by
    intro k
    induction k with
    | zero => intros; rfl
    | succ k ih =>
      intro v t
      cases t with
      | nil => rfl
      | cons b t => simp only [foldInts, deserializeLoop]; rw [ih]
  rw [this]
  exact C22_round_trip 4 x hx s

theorem assign_words (ns : List (Int × Int)) (hf : ∀ n ∈ ns, FitsNode n) (fuel : Nat) (hfu : ns.length ≤ fuel) :
    assignInts 4 fuel (words ns) = some ns := by
  induction ns generalizing fuel with
  | nil => cases fuel <;> rfl
  | cons n ns ih =>
    cases fuel with
    | zero => simp at hfu
    | succ fuel =>
      rw [words_cons]
      simp only [assignInts, if_true]
      rw [ih (fun m hm => hf m (by simp [hm])) fuel (by simpa using hfu)]
      have := hf n (by simp)
      simp [fromTo _ this.1, fromTo _ this.2]

theorem assign_bytes (ns : List (Int × Int)) (hf : ∀ n ∈ ns, FitsNode n) (fuel : Nat) (hfu : ns.length ≤ fuel) :
    assignInts 1 fuel ((words ns).flatMap (serialize 4)) = some ns := by
  induction ns generalizing fuel with
  | nil => cases fuel <;> rfl
  | cons n ns ih =>
    cases fuel with
    | zero => simp at hfu
    | succ fuel =>
      rw [words_cons, List.flatMap_cons, List.flatMap_cons]
      have hl := serialize_length 4 (toUnsigned 4 n.1)
      cases e : serialize 4 (toUnsigned 4 n.1) with
      | nil => rw [e] at hl; simp at hl
      | cons c t =>
        rw [List.cons_append]
        simp only [assignInts, if_neg (show ¬ (1 = 4) by decide)]
        rw [← List.cons_append, ← e, show 4 / 1 = 4 from rfl, foldInts_serialize _ (toUnsigned_lt _)]
        dsimp only
        rw [foldInts_serialize _ (toUnsigned_lt _)]
        dsimp only
        rw [ih (fun m hm => hf m (by simp [hm])) fuel (by simpa using hfu)]
        have := hf n (by simp)
        simp [fromTo _ this.1, fromTo _ this.2]

/-- Same length and same nodes. -/
def Same (h g : Heap) : Prop := h.len = g.len ∧ ∀ i < h.len, h.base i = g.base i ∧ h.check i = g.check i

theorem same_ofNodes (h : Heap) : Same h (ofNodes (nodes h)) := by
  refine ⟨by simp [ofNodes, nodes], fun i hi => ?_⟩
  simp [ofNodes, nodes, hi]

theorem nodes_of_same {h g : Heap} (S : Same h g) : nodes h = nodes g := by
  unfold nodes
  rw [← S.1]
  apply List.map_congr_left
  intro i hi
  have := S.2 i (List.mem_range.mp hi)
  rw [this.1, this.2]

theorem Same.child {h g : Heap} (S : Same h g) {p l} (hp : p < h.len) : child h p l = child g p l := by
  unfold Proof.Trie.child
  rw [← S.1, ← (S.2 p hp).1]
  by_cases hj : (h.base p).toNat + l < h.len
  · rw [(S.2 _ hj).2]
  · simp [hj]

theorem child_lt {h : Heap} {p l j} (e : child h p l = some j) : j < h.len := by
  unfold child at e
  split at e
  · rename_i c
    have : (h.base p).toNat + l = j := by simpa using e
    omega
  · simp at e

theorem Same.walk {h g : Heap} (S : Same h g) : ∀ s {i}, i < h.len → walk h i s = walk g i s := by
  intro s
  induction s with
  | nil => intro i _; rfl
  | cons l s ih =>
    intro i hi
    simp only [Proof.Trie.walk]
    rw [← S.child hi]
    cases e : Proof.Trie.child h i l with
    | none => rfl
    | some j => exact ih (child_lt e)

theorem walk_lt {h : Heap} : ∀ s {i j}, i < h.len → walk h i s = some j → j < h.len := by
  intro s
  induction s with
  | nil => intro i j hi e; simp only [walk, Option.some.injEq] at e; omega
  | cons l s ih =>
    intro i j hi e
    simp only [walk] at e
    cases e1 : child h i l with
    | none => rw [e1] at e; simp at e
    | some k => rw [e1] at e; exact ih (child_lt e1) e

theorem Same.inv {h g : Heap} {F} (S : Same h g) (I : Inv h F) : Inv g F := by
  have hp := I.fl.pos
  have used : ∀ i, Used g F i ↔ Used h F i := by intro i; unfold Used; rw [S.1]
  have ulen : ∀ i, Used h F i → i < h.len := by
    rintro i (rfl | ⟨_, q, _⟩) <;> omega
  refine ⟨⟨by rw [← S.1]; exact hp, ?_, ?_⟩, ?_, ?_, ?_, ?_, ?_⟩
  · intro i hi; rw [← S.1]; exact I.fl.rng i hi
  · intro i hi
    have hl : i < h.len := by
      rcases hi with rfl | q
      · omega
      · exact (I.fl.rng i q).2
    have := I.fl.nx i hi
    unfold NextF at *
    rw [← (S.2 i hl).2]; exact this
  · rw [← (S.2 1 (by omega)).2]; exact I.root
  · intro i hi; rw [← (S.2 i (I.fl.rng i hi).2).1]; exact I.fb i hi
  · intro i h2 hl hF
    rw [← S.1] at hl
    obtain ⟨p, b, u, q⟩ := I.par i h2 hl hF
    refine ⟨p, b, (used p).mpr u, ?_⟩
    rw [← (S.2 i hl).2, ← (S.2 p (ulen p u)).1]; exact q
  · intro i hi
    have hi := (used i).mp hi
    rw [← S.1, ← (S.2 i (ulen i hi)).1]; exact I.bl i hi
  · intro i hi
    obtain ⟨s, e⟩ := I.reach i ((used i).mp hi)
    exact ⟨s, by rw [← S.walk s (by omega)]; exact e⟩

theorem Same.tr {h g : Heap} (S : Same h g) (hp : 2 ≤ h.len) (s) : tr g s = tr h s := by
  unfold Proof.Trie.tr
  rw [← S.walk s (by omega)]
  cases e : Proof.Trie.walk h 1 s with
  | none => rfl
  | some j =>
    have := walk_lt s (by omega) e
    simp only [Option.map_some, Option.some.injEq]
    unfold kind
    rw [(S.2 j this).1]

theorem Same.rep {h g : Heap} {F m} (S : Same h g) (R : Rep h F m) : Rep g F m := by
  have hp := R.I.fl.pos
  refine ⟨S.inv R.I, R.W, by rw [← (S.2 0 (by omega)).1]; exact R.size, ?_⟩
  exact ⟨fun s => by rw [S.tr hp]; exact R.C.inner s, fun s x => by rw [S.tr hp]; exact R.C.leaf s x⟩

theorem Same.srep {h g : Heap} {F m} (S : Same h g) (R : SRep h F m) : SRep g F m := by
  have hp := R.I.fl.pos
  exact ⟨S.inv R.I, R.W, by rw [← (S.2 0 (by omega)).1]; exact R.size, R.C.congr (S.tr hp)⟩

end Verif.Proof.Trie
