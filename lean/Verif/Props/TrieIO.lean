import Verif.Proof.TrieIO
import Verif.Props.TrieWide
/-
Properties C06 and C65: saving and loading tries.
-/
namespace Verif.Props.TrieIO
open Verif.Spec Verif.Spec.KeyMap Verif.Model.Trie Verif.Model.Serialize Verif.Proof.Trie Verif.Props.Trie

/-- A node vector the code can hold: fields are `std::int32_t`, indexes fit them. -/
def Fits (ns : List (Int × Int)) : Prop := (∀ n ∈ ns, FitsNode n) ∧ ns.length < 2 ^ 31

/-- C06, full statement: reading back what was written gives the same nodes and leaves what follows in the stream. -/
def C06_statement : Prop := ∀ ns, Fits ns → ∀ rest : List Nat, (∀ b ∈ rest, b < 256) →
  ∃ bs, save ns = some bs ∧ load (bs ++ rest) = (ns, rest)

/-- C06, what the code does: the byte count is taken for a node count, so up to seven times as many further nodes are
read from the bytes that follow. -/
theorem C06_exact (ns) (hf : Fits ns) (rest : List Nat) : ∃ bs, save ns = some bs ∧
    bs.length = 8 + 8 * ns.length ∧
    load (bs ++ rest) = (ns ++ (loadLoop (7 * ns.length) rest).1, (loadLoop (7 * ns.length) rest).2) := by
  obtain ⟨bs, e, q⟩ := load_save ns hf.1 hf.2 rest
  refine ⟨bs, e, ?_, q⟩
  rw [save_eq] at e
  obtain rfl := Option.some.inj e
  have h4 : ∀ l : List Nat, (l.flatMap (serialize 4)).length = 4 * l.length := by
    intro l
    induction l with
    | nil => rfl
    | cons a l ih =>
      rw [List.flatMap_cons, List.length_append, ih, Verif.Proof.Serialize.serialize_length, List.length_cons]; omega
  rw [List.length_append, Verif.Proof.Serialize.serialize_length, h4, words_length]; omega

/-- C06 fails whenever anything follows a non-empty node vector: extra nodes appear. -/
theorem C06_overread (ns) (hf : Fits ns) (hne : ns ≠ []) (rest : List Nat) (hr : rest ≠ []) :
    ∃ bs, save ns = some bs ∧ ns.length < (load (bs ++ rest)).1.length := by
  obtain ⟨bs, e, _, q⟩ := C06_exact ns hf rest
  refine ⟨bs, e, ?_⟩
  rw [q]
  have hl : 0 < ns.length := List.length_pos_iff.mpr hne
  obtain ⟨k, hk⟩ : ∃ k, 7 * ns.length = k + 1 := ⟨7 * ns.length - 1, by omega⟩
  rw [hk]
  cases rest with
  | nil => exact absurd rfl hr
  | cons c s => simp [loadLoop]

/-- The nodes of the empty trie. -/
example : Fits (nodes Heap.empty) ∧ nodes Heap.empty ≠ [] := by
  refine ⟨⟨?_, by decide⟩, by decide⟩
  intro n hn
  have : n = (0, 0) := by simpa [nodes, Heap.empty, List.range_succ] using hn
  subst this; unfold FitsNode; decide

/-- C06 is false: an empty trie followed by one byte. -/
theorem C06_statement_false : ¬ C06_statement := by
  intro h
  have hf : Fits [(0, 0), (0, 0)] := by
    refine ⟨?_, by decide⟩
    intro n hn
    have : n = (0, 0) := by simpa using hn
    subst this; unfold FitsNode; decide
  obtain ⟨bs, e, q⟩ := h _ hf [1] (by decide)
  obtain ⟨bs', e', q'⟩ := C06_overread _ hf (by decide) [1] (by decide)
  rw [e] at e'
  obtain rfl := Option.some.inj e'
  rw [q] at q'
  simp at q'

/-- C06, partial: missing are streams in which something follows.  A trie saved at the end of the stream is read back
unchanged, and every later history on the loaded trie behaves as if it had never been saved. -/
theorem C06_partial (ops later : List Op) (ok : ∀ op ∈ ops, op.Ok) (ok' : ∀ op ∈ later, op.Ok) :
    ∃ h, baseRun ops = some h ∧ (Fits (nodes h) → ∃ bs h', save (nodes h) = some bs ∧
      load bs = (nodes h, []) ∧ later.foldlM baseStep (ofNodes (load bs).1) = some h' ∧
      Base.size h' = (run (ops ++ later)).length ∧
      ∀ k, Bytes k → Base.contains h' k = some (decide (k ∈ (run (ops ++ later)).map Prod.fst)) ∧
        Base.atKey h' k = some ((KeyMap.get (runLossy (ops ++ later)) k).map Int.ofNat)) := by
  obtain ⟨h, F, e, R⟩ := base_run ops rep_empty ok
  refine ⟨h, e, fun hf => ?_⟩
  obtain ⟨bs, e1, _, q⟩ := C06_exact _ hf []
  rw [loadLoop_nil, List.append_nil, List.append_nil] at q
  obtain ⟨h', F', e', R'⟩ := base_run later ((same_ofNodes h).rep R) ok'
  have hk := keys_run (ops ++ later) (rfl : ([] : KMap).map Prod.fst = ([] : KMap).map Prod.fst)
  rw [List.foldl_append] at hk
  refine ⟨bs, h', e1, q, by rw [q]; exact e', ?_, fun k hb => ⟨?_, ?_⟩⟩
  · have := congrArg List.length hk
    simp only [List.length_map] at this
    rw [Base.size, R'.size, this]; rfl
  · rw [R'.contains hb]
    unfold run
    rw [← hk]
    congr 1
    rw [Bool.eq_iff_iff, decide_eq_true_iff, ← Verif.Props.TrieWide.mem_keys]
  · rw [R'.atKey hb, runLossy, List.foldl_append]

/-- C06, partial, for the stable trie. -/
theorem C06_stable_partial (ops later : List Op) (ok : ∀ op ∈ ops, op.Ok) (ok' : ∀ op ∈ later, op.Ok) :
    ∃ h, stableRun ops = some h ∧ (Fits (nodes h) → ∃ bs h', save (nodes h) = some bs ∧
      load bs = (nodes h, []) ∧ later.foldlM stableStep (ofNodes (load bs).1) = some h' ∧
      ∀ k, Bytes k → Stable.contains h' k = some (KeyMap.get (run (ops ++ later)) k).isSome ∧
        Stable.atKey h' k = some ((KeyMap.get (run (ops ++ later)) k).map Int.ofNat)) := by
  obtain ⟨h, F, e, R⟩ := stable_run ops srep_empty ok
  refine ⟨h, e, fun hf => ?_⟩
  obtain ⟨bs, e1, _, q⟩ := C06_exact _ hf []
  rw [loadLoop_nil, List.append_nil, List.append_nil] at q
  obtain ⟨h', F', e', R'⟩ := stable_run later ((same_ofNodes h).srep R) ok'
  refine ⟨bs, h', e1, q, by rw [q]; exact e', fun k hb => ?_⟩
  rw [R'.contains hb, R'.atKey hb, run, List.foldl_append]
  exact ⟨rfl, rfl⟩

example : (∀ op ∈ demo, op.Ok) ∧ KeyMap.get (run (demo ++ [.insert [99] 4])) [99] = some 4 := by decide

example : (baseRun [.insert [97] 5]).all (fun h => decide (∀ n ∈ nodes h, -(2 ^ 31) ≤ n.1 ∧ n.1 < 2 ^ 31 ∧
    -(2 ^ 31) ≤ n.2 ∧ n.2 < 2 ^ 31)) = true := by decide +kernel

/-- The integers of `w` bytes that spell a 32-bit word, most significant first. -/
def units (w x : Nat) : List Nat :=
  match w with
  | 4 => [x]
  | 2 => [x / 65536, x % 65536]
  | _ => serialize 4 x

/-- C65, full statement: the words of `[ibegin(), iend())`, given as 8-, 16- or 32-bit integers, rebuild the nodes. -/
def C65_statement : Prop := ∀ w, w = 1 ∨ w = 2 ∨ w = 4 → ∀ ns, Fits ns →
  assignInts w ns.length ((words ns).flatMap (units w)) = some ns

/-- C65 is false: 16-bit integers are shifted by 8 instead of 16 bits. -/
theorem C65_statement_false : ¬ C65_statement := by
  intro h
  have hf : Fits [(65536, 0)] := by
    refine ⟨?_, by decide⟩
    intro n hn
    have : n = (65536, 0) := by simpa using hn
    subst this; unfold FitsNode; decide
  have := h 2 (by decide) _ hf
  revert this
  decide

/-- C65, partial: missing are 16-bit integers. -/
theorem C65_partial (ns) (hf : Fits ns) :
    assignInts 4 ns.length ((words ns).flatMap (units 4)) = some ns ∧
    assignInts 1 ns.length ((words ns).flatMap (units 1)) = some ns := by
  constructor
  · have : (words ns).flatMap (units 4) = words ns := by
      show (words ns).flatMap (fun x => [x]) = _
      simp
    rw [this]
    exact assign_words ns hf.1 _ (Nat.le_refl _)
  · exact assign_bytes ns hf.1 _ (Nat.le_refl _)

example : Fits [(65536, -7), (0, 1)] := by
  refine ⟨?_, by decide⟩
  intro n hn
  have : n = (65536, -7) ∨ n = (0, 1) := by simpa using hn
  rcases this with rfl | rfl <;> (unfold FitsNode; decide)

end Verif.Props.TrieIO
