import Verif.Proof.TrieWide
import Verif.Props.Trie
/-
Properties C09 and C62: tries over labels of several bytes.
-/
namespace Verif.Props.TrieWide
open Verif.Spec Verif.Spec.KeyMap Verif.Model.Trie Verif.Proof.Trie Verif.Props.Trie

/-- One operation on `trie<Label>` with `w`-byte labels. -/
def wideStep (w : Nat) (h : Heap) : Op → Option Heap
  | .insert k v => (Wide.insertKey w h k v).map Prod.fst
  | .erase k => Wide.eraseKey w h k
  | .set k v => (Wide.setKey w h k v).map Prod.fst
  | .clear => some Heap.empty

/-- A history on a fresh `trie<Label>`. -/
def wideRun (w : Nat) (ops : List Op) : Option Heap := ops.foldlM (wideStep w) Heap.empty

/-- One operation on `stable_trie<Label>`. -/
def wideStableStep (w : Nat) (h : Heap) : Op → Option Heap
  | .insert k v => (WideStable.insertKey w h k v).map Prod.fst
  | .erase k => WideStable.eraseKey w h k
  | .set k v => (WideStable.setKey w h k v).map Prod.fst
  | .clear => some Heap.empty

/-- A history on a fresh `stable_trie<Label>`. -/
def wideStableRun (w : Nat) (ops : List Op) : Option Heap := ops.foldlM (wideStableStep w) Heap.empty

theorem wide_run {w : Nat} (hw : 0 < w) (ops : List Op) : ∀ {h F m}, Rep h F (enc w m) → WdMap w m →
    (∀ op ∈ ops, WideOk w op) →
    ∃ h' F', ops.foldlM (wideStep w) h = some h' ∧ Rep h' F' (enc w (ops.foldl stepLossy m)) ∧
      WdMap w (ops.foldl stepLossy m) := by
  induction ops with
  | nil => intro h F m R hm _; exact ⟨h, F, rfl, R, hm⟩
  | cons op ops ih =>
    intro h F m R hm ok
    have ok1 := ok op (by simp)
    obtain ⟨h1, F1, e1, R1⟩ := base_step R (encOp w op) (encOp_ok ok1)
    rw [enc_stepLossy hw hm ok1] at R1
    obtain ⟨h2, F2, e2, R2, m2⟩ := ih R1 (hm.stepLossy ok1) (fun o ho => ok o (by simp [ho]))
    refine ⟨h2, F2, ?_, R2, m2⟩
    have : wideStep w h op = some h1 := by
      rw [← e1]
      cases op with
      | erase k =>
        simp only [wideStep, Wide.eraseKey, encOp, baseStep, Base.eraseKey]
        rw [wideFind_eq hw R.I]
      | _ => rfl
    rw [List.foldlM_cons, this]; exact e2

theorem wideStable_run {w : Nat} (hw : 0 < w) (ops : List Op) : ∀ {h F m}, SRep h F (enc w m) → WdMap w m →
    (∀ op ∈ ops, WideOk w op) →
    ∃ h' F', ops.foldlM (wideStableStep w) h = some h' ∧ SRep h' F' (enc w (ops.foldl step m)) ∧
      WdMap w (ops.foldl step m) := by
  induction ops with
  | nil => intro h F m R hm _; exact ⟨h, F, rfl, R, hm⟩
  | cons op ops ih =>
    intro h F m R hm ok
    have ok1 := ok op (by simp)
    obtain ⟨h1, F1, e1, R1⟩ := stable_step R (encOp w op) (encOp_ok ok1)
    rw [enc_step hw hm ok1] at R1
    obtain ⟨h2, F2, e2, R2, m2⟩ := ih R1 (hm.step ok1) (fun o ho => ok o (by simp [ho]))
    refine ⟨h2, F2, ?_, R2, m2⟩
    have : wideStableStep w h op = some h1 := by
      rw [← e1]
      cases op with
      | erase k =>
        simp only [wideStableStep, WideStable.eraseKey, encOp, stableStep, Stable.eraseKey]
        rw [R.wideFind_eq hw]
      | _ => rfl
    rw [List.foldlM_cons, this]; exact e2

theorem mem_keys (m : KMap) (k : List Nat) : (KeyMap.get m k).isSome = true ↔ k ∈ m.map Prod.fst := by
  unfold KeyMap.get
  rw [Option.isSome_map, List.find?_isSome]
  simp

/-- C09. Over every history of a trie with `w`-byte labels (`w` is 1, 2, 4 or 8 in C++), `contains` answers exactly the
label strings inserted and not erased since, and `size` counts them. -/
theorem C09_set (w : Nat) (hw : 0 < w) (ops : List Op) (ok : ∀ op ∈ ops, WideOk w op) :
    ∃ h, wideRun w ops = some h ∧ Base.size h = (run ops).length ∧
      ∀ k, Wd w k → wideContains w h k = some (decide (k ∈ (run ops).map Prod.fst)) := by
  obtain ⟨h, F, e, R, hm⟩ := wide_run hw ops (m := []) rep_empty (by intro e he; simp at he) ok
  have hk := keys_run ops (rfl : ([] : KMap).map Prod.fst = ([] : KMap).map Prod.fst)
  refine ⟨h, e, ?_, ?_⟩
  · have := congrArg List.length hk
    simp only [List.length_map] at this
    have hs := R.size
    show h.base 0 = _
    unfold run
    rw [hs, enc, List.length_map, this]
  · intro k hkw
    rw [wideContains_eq hw R.I, R.contains (bytesOf_byte w k), enc_get hw hm hkw]
    congr 1
    rw [Bool.eq_iff_iff, mem_keys, hk, decide_eq_true_iff]
    rfl

/-- C09, values: exactly as in the byte trie (see C02). -/
theorem C09_values (w : Nat) (hw : 0 < w) (ops : List Op) (ok : ∀ op ∈ ops, WideOk w op) :
    ∃ h, wideRun w ops = some h ∧
      ∀ k, Wd w k → Wide.atKey w h k = some ((KeyMap.get (runLossy ops) k).map Int.ofNat) := by
  obtain ⟨h, F, e, R, hm⟩ := wide_run hw ops (m := []) rep_empty (by intro e he; simp at he) ok
  refine ⟨h, e, fun k hk => ?_⟩
  rw [Wide.atKey, R.atKey (bytesOf_byte w k), enc_get hw hm hk]; rfl

/-- C09 for the stable trie, with values. -/
theorem C09_stable (w : Nat) (hw : 0 < w) (ops : List Op) (ok : ∀ op ∈ ops, WideOk w op) :
    ∃ h, wideStableRun w ops = some h ∧ h.base 0 = (run ops).length ∧
      (∀ k, Wd w k → wideContains w h k = some (decide (k ∈ (run ops).map Prod.fst))) ∧
      ∀ k, Wd w k → WideStable.atKey w h k = some ((KeyMap.get (run ops) k).map Int.ofNat) := by
  obtain ⟨h, F, e, R, hm⟩ := wideStable_run hw ops (m := []) srep_empty (by intro e he; simp at he) ok
  refine ⟨h, e, ?_, ?_, ?_⟩
  · rw [R.size, enc, List.length_map]; rfl
  · intro k hk
    rw [R.wideContains_eq hw, R.contains (bytesOf_byte w k), enc_get hw hm hk]
    congr 1
    rw [Bool.eq_iff_iff, mem_keys, decide_eq_true_iff]; rfl
  · intro k hk
    rw [WideStable.atKey, R.atKey (bytesOf_byte w k), enc_get hw hm hk]; rfl

/-- C09, look-up works in whole labels: `lookup` splits the key after its longest prefix that is a prefix of a stored
label string; a match of some bytes of the next label is undone. -/
theorem C09_lookup (w : Nat) (hw : 0 < w) (ops : List Op) (ok : ∀ op ∈ ops, WideOk w op) :
    ∃ h, wideRun w ops = some h ∧
      ∀ k, Wd w k → ∃ i p r, wideLookup w h k = some (i, r) ∧ k = p ++ r ∧ IsPath (run ops) p ∧
        (∀ q, q <+: k → IsPath (run ops) q → q <+: p) ∧ wideSearch w h p = some i ∧ i ≠ 0 := by
  obtain ⟨h, F, e, R, hm⟩ := wide_run hw ops (m := []) rep_empty (by intro e he; simp at he) ok
  have hkeys := keys_run ops (rfl : ([] : KMap).map Prod.fst = ([] : KMap).map Prod.fst)
  have hpath : ∀ p, Wd w p → ((walk h 1 (bytesOf w p)).isSome = true ↔ IsPath (run ops) p) := by
    intro p hp
    have h1 : (walk h 1 (bytesOf w p)).isSome = true ↔ tr h (bytesOf w p) ≠ none := by
      unfold tr; cases walk h 1 (bytesOf w p) <;> simp
    rw [h1, path_iff R (bytesOf_byte w p)]
    unfold IsPath run
    rw [bytesOf_eq_nil hw, ← hkeys]
    constructor
    · rintro (a | ⟨k, a, b⟩)
      · exact Or.inl a
      · obtain ⟨x, hx, rfl⟩ := List.mem_map.mp a
        obtain ⟨y, hy, rfl⟩ := List.mem_map.mp hx
        exact Or.inr ⟨y.1, List.mem_map.mpr ⟨y, hy, rfl⟩, (bytesOf_prefix hw hp (hm y hy)).mp b⟩
    · rintro (a | ⟨k, a, b⟩)
      · exact Or.inl a
      · obtain ⟨y, hy, rfl⟩ := List.mem_map.mp a
        exact Or.inr ⟨bytesOf w y.1, List.mem_map.mpr ⟨_, List.mem_map.mpr ⟨y, hy, rfl⟩, rfl⟩,
          (bytesOf_prefix hw hp (hm y hy)).mpr b⟩
  refine ⟨h, e, fun k hk => ?_⟩
  obtain ⟨i, p, r, el, hkp, hp, hn⟩ := wideLookup_spec hw R.I k
  have hpw : Wd w p := fun l hl => hk l (by rw [hkp]; simp [hl])
  refine ⟨i, p, r, el, hkp, (hpath p hpw).mp (by rw [hp]; rfl), ?_, ?_, ?_⟩
  · intro q hq hqp
    rcases List.prefix_or_prefix_of_prefix hq (hkp ▸ List.prefix_append p r) with z | z
    · exact z
    · obtain ⟨t, rfl⟩ := z
      cases t with
      | nil => simp
      | cons l ls =>
        exfalso
        have hr : ∃ ls', r = l :: ls' := by
          obtain ⟨u, hu⟩ := hq
          rw [hkp, List.append_assoc] at hu
          exact ⟨ls ++ u, (List.append_cancel_left hu).symm⟩
        obtain ⟨ls', rfl⟩ := hr
        have hqw : Wd w (p ++ l :: ls) := fun x hx => hk x (hq.subset hx)
        have := (hpath _ hqw).mpr hqp
        rw [show p ++ l :: ls = p ++ [l] ++ ls by simp, bytesOf_append, walk_append, hn l ls' rfl] at this
        simp at this
  · unfold wideSearch
    rcases wideLookup_walk hw R.I p with ⟨j, a, e'⟩ | ⟨a, _⟩
    · rw [hp] at a
      rw [e']; simpa using a.symm
    · rw [hp] at a; simp at a
  · have := ((R.I.root_used hp).lt R.I.fl).1; omega

/-- The iterator that feeds the bytes to the byte trie delivers exactly `bytesOf`. -/
theorem C09_bytes (w : Nat) (hw : w = 1 ∨ w = 2 ∨ w = 4 ∨ w = 8) (key : List Nat) :
    Verif.Model.Serialize.SerIt.run w (key.length * w) ⟨key, 0⟩ = some (bytesOf w key) := by
  refine Verif.Proof.Serialize.run_eq w (by omega) ?_ key 0 (Nat.zero_mod w)
  rcases hw with rfl | rfl | rfl | rfl <;> decide

/-- Two 2-byte labels that share their first byte, and a third key extending the first. -/
def wdemo : List Op := [.insert [0x3042] 5, .insert [0x3044] 6, .insert [0x3042, 0x3046] 7, .erase [0x3044],
  .set [0x3042] 9]

instance (w : Nat) (k : List Nat) : Decidable (Wd w k) := by unfold Wd; infer_instance
instance (w : Nat) (op : Op) : Decidable (WideOk w op) := by cases op <;> unfold WideOk <;> infer_instance

example : (∀ op ∈ wdemo, WideOk 2 op) ∧ (∀ op ∈ wdemo, WideOk 4 op) ∧
    run wdemo = [([0x3042, 0x3046], 7), ([0x3042], 9)] ∧ bytesOf 2 [0x3042, 0x3046] = [0x30, 0x42, 0x30, 0x46] := by
  decide

/-- C62, full statement: after `assign(first, last)` a trie with labels wider than a byte contains exactly the
non-empty strings of the range, whatever it held before. -/
def C62_statement : Prop := ∀ (w : Nat) (ops : List Op) (ks : List (List Nat)), 1 < w → (∀ op ∈ ops, WideOk w op) →
  (∀ k ∈ ks, Wd w k) → ∃ h h', wideRun w ops = some h ∧ Wide.assign w h ks = some h' ∧
    ∀ k, Wd w k → wideContains w h' k = some (decide (k ≠ [] ∧ k ∈ ks))

theorem assign_eq (w : Nat) (ks : List (List Nat)) : ∀ h, Wide.assign w h ks =
    (ks.map fun k => Op.insert k 0).foldlM (wideStep w) h := by
  induction ks with
  | nil => intro h; rfl
  | cons k ks ih =>
    intro h
    rw [Wide.assign, List.map_cons, List.foldlM_cons]
    simp only [wideStep]
    cases Wide.insertKey w h k 0 with
    | none => rfl
    | some r => exact ih r.1

theorem mem_inserts (ks : List (List Nat)) : ∀ (m : KMap) (k : List Nat),
    k ∈ ((ks.map fun k => Op.insert k 0).foldl step m).map Prod.fst ↔ (k ≠ [] ∧ k ∈ ks) ∨ k ∈ m.map Prod.fst := by
  induction ks with
  | nil => intro m k; simp
  | cons a ks ih =>
    intro m k
    rw [List.map_cons, List.foldl_cons, ih]
    have : k ∈ (step m (.insert a 0)).map Prod.fst ↔ (k ≠ [] ∧ k = a) ∨ k ∈ m.map Prod.fst := by
      simp only [step]
      split
      · rename_i h
        rw [mem_keys] at h
        constructor
        · exact Or.inr
        · rintro (⟨h0, rfl⟩ | h1)
          · exact h.resolve_left h0
          · exact h1
      · rename_i h
        rw [List.map_cons, List.mem_cons]
        constructor
        · rintro (rfl | h1)
          · exact Or.inl ⟨fun z => h (Or.inl z), rfl⟩
          · exact Or.inr h1
        · rintro (⟨_, rfl⟩ | h1)
          · exact Or.inl rfl
          · exact Or.inr h1
    rw [this, List.mem_cons]
    constructor
    · rintro (⟨a, b⟩ | ⟨a, b⟩ | c)
      · exact Or.inl ⟨a, Or.inr b⟩
      · exact Or.inl ⟨a, Or.inl b⟩
      · exact Or.inr c
    · rintro (⟨a, b | b⟩ | c)
      · exact Or.inr (Or.inl ⟨a, b⟩)
      · exact Or.inl ⟨a, b⟩
      · exact Or.inr (Or.inr c)

/-- C62, what the code does: `assign` adds the strings to what the trie already contains. -/
theorem C62_exact (w : Nat) (hw : 0 < w) (ops : List Op) (ok : ∀ op ∈ ops, WideOk w op) (ks : List (List Nat))
    (hks : ∀ k ∈ ks, Wd w k) :
    ∃ h h', wideRun w ops = some h ∧ Wide.assign w h ks = some h' ∧
      ∀ k, Wd w k → wideContains w h' k =
        some (decide ((k ≠ [] ∧ k ∈ ks) ∨ k ∈ (run ops).map Prod.fst)) := by
  have ok2 : ∀ op ∈ ks.map (fun k => Op.insert k 0), WideOk w op := by
    intro op hop
    obtain ⟨k, hk, rfl⟩ := List.mem_map.mp hop
    exact ⟨hks k hk, by omega⟩
  obtain ⟨h, F, e, R, hm⟩ := wide_run hw ops (m := []) rep_empty (by intro e he; simp at he) ok
  obtain ⟨h', F', e', R', hm'⟩ := wide_run hw _ R hm ok2
  refine ⟨h, h', e, by rw [assign_eq]; exact e', fun k hk => ?_⟩
  rw [wideContains_eq hw R'.I, R'.contains (bytesOf_byte w k), enc_get hw hm' hk]
  congr 1
  rw [Bool.eq_iff_iff, mem_keys, decide_eq_true_iff]
  have h1 := keys_run ops (rfl : ([] : KMap).map Prod.fst = ([] : KMap).map Prod.fst)
  rw [keys_run _ h1, mem_inserts]
  rfl

/-- C62 is false: assigning `{}` to a non-empty `trie<char16_t>` leaves it as it was. -/
theorem C62_statement_false : ¬ C62_statement := by
  intro h
  have ok : ∀ op ∈ [Op.insert [0x3042] 1], WideOk 2 op := by decide
  obtain ⟨h1, h1', e1, e1', q1⟩ := h 2 [.insert [0x3042] 1] [] (by decide) ok (by simp)
  obtain ⟨h2, h2', e2, e2', q2⟩ := C62_exact 2 (by decide) [.insert [0x3042] 1] ok [] (by simp)
  rw [e1] at e2
  obtain rfl : h1 = h2 := by simpa using e2
  rw [e1'] at e2'
  obtain rfl : h1' = h2' := by simpa using e2'
  have := (q1 [0x3042] (by decide)).symm.trans (q2 [0x3042] (by decide))
  revert this
  decide

/-- C62, partial: missing is the case of a trie that was not empty before. -/
theorem C62_partial (w : Nat) (hw : 0 < w) (ks : List (List Nat)) (hks : ∀ k ∈ ks, Wd w k) :
    ∃ h', Wide.assign w Heap.empty ks = some h' ∧
      ∀ k, Wd w k → wideContains w h' k = some (decide (k ≠ [] ∧ k ∈ ks)) := by
  obtain ⟨h, h', e, e', q⟩ := C62_exact w hw [] (by simp) ks hks
  obtain rfl : Heap.empty = h := by simpa [wideRun] using e
  refine ⟨h', e', fun k hk => ?_⟩
  rw [q k hk]
  simp [run]

example : ∀ k ∈ [[0x3042], [0x3042, 0x3044], []], Wd 4 k := by decide

end Verif.Props.TrieWide
