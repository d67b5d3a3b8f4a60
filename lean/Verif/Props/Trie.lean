import Verif.Proof.TrieStable
/-
Properties C01 to C04, C07, C08 and C61: the byte-string tries.
-/
namespace Verif.Props.Trie
open Verif.Spec Verif.Spec.KeyMap Verif.Model.Trie Verif.Proof.Trie

/-- One operation on a `trie_base`. -/
def baseStep (h : Heap) : Op → Option Heap
  | .insert k v => (Base.insertKey h k v).map Prod.fst
  | .erase k => Base.eraseKey h k
  | .set k v => (Base.setKey h k v).map Prod.fst
  | .clear => some Heap.empty

/-- A history on a fresh `trie_base`. -/
def baseRun (ops : List Op) : Option Heap := ops.foldlM baseStep Heap.empty

/-- One operation on a `stable_trie_base`. -/
def stableStep (h : Heap) : Op → Option Heap
  | .insert k v => (Stable.insertKey h k v).map Prod.fst
  | .erase k => Stable.eraseKey h k
  | .set k v => (Stable.setKey h k v).map Prod.fst
  | .clear => some Heap.empty

/-- A history on a fresh `stable_trie_base`. -/
def stableRun (ops : List Op) : Option Heap := ops.foldlM stableStep Heap.empty

def Bytes (k : List Nat) : Prop := ∀ b ∈ k, b < 256

instance (k : List Nat) : Decidable (Bytes k) := by unfold Bytes; infer_instance

instance (op : Op) : Decidable op.Ok := by cases op <;> unfold Op.Ok <;> infer_instance

theorem base_step {h F m} (R : Rep h F m) (op : Op) (ok : op.Ok) :
    ∃ h' F', baseStep h op = some h' ∧ Rep h' F' (stepLossy m op) := by
  cases op with
  | insert k v =>
    by_cases hk : k = []
    · subst hk
      refine ⟨h, F, ?_, by simpa [stepLossy, step] using R⟩
      have : v ≤ valueMax := ok.2
      simp [baseStep, Base.insertKey, this]
    · obtain ⟨h', F', i, e, R', _⟩ := R.insert hk ok.1 ok.2
      exact ⟨h', F', by simp [baseStep, e], by simpa [stepLossy, step, hk] using R'⟩
  | erase k =>
    obtain ⟨h', F', e, R'⟩ := R.erase ok
    exact ⟨h', F', e, R'⟩
  | set k v =>
    obtain ⟨h', e, R'⟩ := R.setKey (v := v) ok.1
    exact ⟨h', F, by simp [baseStep, e], R'⟩
  | clear => exact ⟨_, _, rfl, rep_empty⟩

theorem base_run (ops : List Op) : ∀ {h F m}, Rep h F m → (∀ op ∈ ops, op.Ok) →
    ∃ h' F', ops.foldlM baseStep h = some h' ∧ Rep h' F' (ops.foldl stepLossy m) := by
  induction ops with
  | nil => intro h F m R _; exact ⟨h, F, rfl, R⟩
  | cons op ops ih =>
    intro h F m R ok
    obtain ⟨h1, F1, e1, R1⟩ := base_step R op (ok op (by simp))
    obtain ⟨h2, F2, e2, R2⟩ := ih R1 (fun o ho => ok o (by simp [ho]))
    refine ⟨h2, F2, ?_, R2⟩
    rw [List.foldlM_cons, e1]; exact e2

theorem stable_step {h F m} (R : SRep h F m) (op : Op) (ok : op.Ok) :
    ∃ h' F', stableStep h op = some h' ∧ SRep h' F' (step m op) := by
  cases op with
  | insert k v =>
    by_cases hk : k = []
    · subst hk
      refine ⟨h, F, ?_, by simpa [step] using R⟩
      have : v ≤ valueMax := ok.2
      simp [stableStep, Stable.insertKey, this]
    · obtain ⟨h', F', i, e, R', _⟩ := R.insert hk ok.1 ok.2
      exact ⟨h', F', by simp [stableStep, e], by simpa [step, hk] using R'⟩
  | erase k =>
    obtain ⟨h', F', e, R', _⟩ := R.erase ok
    exact ⟨h', F', e, R'⟩
  | set k v =>
    obtain ⟨h', e, R', _⟩ := R.setKey (v := v) ok.1
    exact ⟨h', F, by simp [stableStep, e], R'⟩
  | clear => exact ⟨_, _, rfl, srep_empty⟩

theorem stable_run (ops : List Op) : ∀ {h F m}, SRep h F m → (∀ op ∈ ops, op.Ok) →
    ∃ h' F', ops.foldlM stableStep h = some h' ∧ SRep h' F' (ops.foldl step m) := by
  induction ops with
  | nil => intro h F m R _; exact ⟨h, F, rfl, R⟩
  | cons op ops ih =>
    intro h F m R ok
    obtain ⟨h1, F1, e1, R1⟩ := stable_step R op (ok op (by simp))
    obtain ⟨h2, F2, e2, R2⟩ := ih R1 (fun o ho => ok o (by simp [ho]))
    refine ⟨h2, F2, ?_, R2⟩
    rw [List.foldlM_cons, e1]; exact e2

/-- Both specifications keep the same keys. -/
theorem keys_step {m m' : KMap} (h : m.map Prod.fst = m'.map Prod.fst) (op : Op) :
    (stepLossy m op).map Prod.fst = (step m' op).map Prod.fst := by
  have hget : ∀ k, (KeyMap.get m k).isSome = (KeyMap.get m' k).isSome := by
    intro k
    have gen : ∀ m : KMap, (KeyMap.get m k).isSome = true ↔ k ∈ m.map Prod.fst := by
      intro m
      unfold KeyMap.get
      rw [Option.isSome_map, List.find?_isSome]
      simp
    rw [Bool.eq_iff_iff, gen, gen, h]
  cases op with
  | insert k v =>
    simp only [stepLossy, step, hget]
    split <;> simp [h]
  | erase k =>
    have e1 : (eraseLossy m k).map Prod.fst = (m.map Prod.fst).filter (· ≠ k) := by
      unfold eraseLossy
      rw [List.map_map]
      have : (Prod.fst ∘ fun e => if lone m e.1 k then (e.1, 0) else e) = (Prod.fst : List Nat × Nat → _) := by
        funext e
        simp only [Function.comp]
        split <;> rfl
      rw [this, List.filter_map]; rfl
    have e2 : (m'.filter fun e => e.1 ≠ k).map Prod.fst = (m'.map Prod.fst).filter (· ≠ k) := by
      rw [List.filter_map]; rfl
    simp only [stepLossy, step]
    rw [e1, e2, h]
  | set k v =>
    have : ∀ m : KMap, (step m (.set k v)).map Prod.fst = m.map Prod.fst := fun m => set_fst
    show (step m (.set k v)).map Prod.fst = _
    rw [this, this, h]
  | clear => rfl

theorem keys_run (ops : List Op) : ∀ {m m' : KMap}, m.map Prod.fst = m'.map Prod.fst →
    (ops.foldl stepLossy m).map Prod.fst = (ops.foldl step m').map Prod.fst := by
  induction ops with
  | nil => intro m m' h; exact h
  | cons op ops ih => intro m m' h; exact ih (keys_step h op)

/-- C01. Over every history, `contains` answers exactly the live keys and `size` counts them. -/
theorem C01_set (ops : List Op) (ok : ∀ op ∈ ops, op.Ok) :
    ∃ h, baseRun ops = some h ∧ Base.size h = (run ops).length ∧
      ∀ k, Bytes k → Base.contains h k = some (decide (k ∈ (run ops).map Prod.fst)) := by
  obtain ⟨h, F, e, R⟩ := base_run ops rep_empty ok
  have hk := keys_run ops (rfl : ([] : KMap).map Prod.fst = ([] : KMap).map Prod.fst)
  refine ⟨h, e, ?_, ?_⟩
  · have := congrArg List.length hk
    simp only [List.length_map] at this
    have hs := R.size
    show h.base 0 = _
    unfold run
    rw [hs, this]
  · intro k hb
    rw [R.contains hb]
    congr 1
    have gen : ∀ m : KMap, (KeyMap.get m k).isSome = true ↔ k ∈ m.map Prod.fst := by
      intro m
      unfold KeyMap.get
      rw [Option.isSome_map, List.find?_isSome]
      simp
    rw [Bool.eq_iff_iff, gen, hk, decide_eq_true_iff]
    rfl

/-- Meaning of the specification: keys of `run` are those inserted and not erased since. -/
theorem C01_spec (ops : List Op) (op : Op) (k : List Nat) :
    (k ∈ (run (ops ++ [op])).map Prod.fst ↔
      match op with
      | .insert k' _ => (k = k' ∧ k ≠ []) ∨ k ∈ (run ops).map Prod.fst
      | .erase k' => k ≠ k' ∧ k ∈ (run ops).map Prod.fst
      | .set _ _ => k ∈ (run ops).map Prod.fst
      | .clear => False) := by
  have e : run (ops ++ [op]) = step (run ops) op := by simp [run]
  rw [e]
  have gen : ∀ (m : KMap) k, (KeyMap.get m k).isSome = true ↔ k ∈ m.map Prod.fst := by
    intro m k
    unfold KeyMap.get
    rw [Option.isSome_map, List.find?_isSome]
    simp
  cases op with
  | insert k' v =>
    simp only [step]
    split
    · rename_i h
      rw [gen] at h
      constructor
      · exact Or.inr
      · rintro (⟨rfl, h0⟩ | h1)
        · exact h.resolve_left h0
        · exact h1
    · rename_i h
      rw [gen] at h
      simp only [List.map_cons, List.mem_cons]
      constructor
      · rintro (rfl | h1)
        · exact Or.inl ⟨rfl, fun w => h (Or.inl w)⟩
        · exact Or.inr h1
      · rintro (⟨rfl, _⟩ | h1)
        · exact Or.inl rfl
        · exact Or.inr h1
  | erase k' =>
    simp only [step, List.mem_map, List.mem_filter]
    constructor
    · rintro ⟨e, ⟨a, b⟩, rfl⟩; exact ⟨by simpa using b, e, a, rfl⟩
    · rintro ⟨a, e, b, rfl⟩; exact ⟨e, ⟨b, by simpa using a⟩, rfl⟩
  | set k' v =>
    have : (step (run ops) (.set k' v)).map Prod.fst = (run ops).map Prod.fst := set_fst
    rw [this]
  | clear => simp [step]

/-- A history with nested prefixes that meets the hypotheses of C01. -/
def demo : List Op := [.insert [97] 5, .insert [97, 98] 6, .insert [98] 7, .insert [] 1,
  .insert [97, 98, 99, 0, 255] 8, .erase [97, 98], .insert [97] 9]

example : (∀ op ∈ demo, op.Ok) ∧
    (run demo).map Prod.fst = [[97, 98, 99, 0, 255], [98], [97]] := by decide

/-- C02, full statement: every live key reads back the value it was inserted or assigned with. -/
def C02_statement : Prop := ∀ (ops : List Op), (∀ op ∈ ops, op.Ok) →
  ∃ h, baseRun ops = some h ∧
    ∀ k, Bytes k → Base.atKey h k = some ((KeyMap.get (run ops) k).map Int.ofNat)

/-- C02, what the code does, exactly: values are as in `runLossy`. -/
theorem C02_exact (ops : List Op) (ok : ∀ op ∈ ops, op.Ok) :
    ∃ h, baseRun ops = some h ∧
      ∀ k, Bytes k → Base.atKey h k = some ((KeyMap.get (runLossy ops) k).map Int.ofNat) := by
  obtain ⟨h, F, e, R⟩ := base_run ops rep_empty ok
  exact ⟨h, e, fun k hb => R.atKey hb⟩

/-- C02 is false: `insert("a", 5); insert("ab", 6); erase("ab")` makes `at("a")` read 0. -/
theorem C02_statement_false : ¬ C02_statement := by
  intro h
  let ops : List Op := [.insert [97] 5, .insert [97, 98] 6, .erase [97, 98]]
  have ok : ∀ op ∈ ops, op.Ok := by decide
  obtain ⟨h1, e1, q1⟩ := h ops ok
  obtain ⟨h2, e2, q2⟩ := C02_exact ops ok
  rw [e1] at e2
  obtain rfl : h1 = h2 := by simpa using e2
  have := (q1 [97] (by decide)).symm.trans (q2 [97] (by decide))
  revert this
  decide

/-- The history never erases a key that is the only proper extension of another stored key. -/
def NoLoneErase (ops : List Op) : Prop :=
  ∀ pre k post, ops = pre ++ .erase k :: post → ∀ e ∈ run pre, ¬ lone (run pre) e.1 k

theorem erase_exact {m : KMap} {k} (h : ∀ e ∈ m, ¬ lone m e.1 k) :
    eraseLossy m k = m.filter fun e => e.1 ≠ k := by
  unfold eraseLossy
  conv => rhs; rw [← List.map_id (m.filter _)]
  apply List.map_congr_left
  intro e he
  rw [if_neg (h e (List.mem_filter.mp he).1)]; rfl

theorem runLossy_eq (ops : List Op) (h : NoLoneErase ops) : runLossy ops = run ops := by
  have gen : ∀ (n : Nat) (ops : List Op), ops.length = n → NoLoneErase ops → runLossy ops = run ops := by
    intro n
    induction n with
    | zero => intro ops hl _; rw [List.length_eq_zero_iff.mp hl]; rfl
    | succ n ih =>
      intro ops hl hn
      rcases List.eq_nil_or_concat ops with rfl | ⟨pre, op, rfl⟩
      · rfl
      · have hpre : runLossy pre = run pre := by
          apply ih pre (by simpa using hl)
          intro a k b e
          exact hn a k (b ++ [op]) (by simp [e])
        have e1 : runLossy (pre ++ [op]) = stepLossy (runLossy pre) op := by simp [runLossy]
        have e2 : run (pre ++ [op]) = step (run pre) op := by simp [run]
        rw [List.concat_eq_append, e1, e2, hpre]
        cases op with
        | erase k => exact erase_exact (hn pre k [] (by simp))
        | _ => rfl
  exact gen _ ops rfl h

/-- C02, partial: missing are exactly the histories that erase the only extension of a stored key (the code then
resets the value of the shorter key to 0, `C02_statement_false`). -/
theorem C02_partial (ops : List Op) (ok : ∀ op ∈ ops, op.Ok) (hn : NoLoneErase ops) :
    ∃ h, baseRun ops = some h ∧
      ∀ k, Bytes k → Base.atKey h k = some ((KeyMap.get (run ops) k).map Int.ofNat) := by
  obtain ⟨h, e, q⟩ := C02_exact ops ok
  rw [runLossy_eq ops hn] at q
  exact ⟨h, e, q⟩

/-- `insert("a"); insert("ab"); insert("ac"); erase("ab")` meets the hypotheses. -/
example : NoLoneErase [.insert [97] 5, .insert [97, 98] 6, .insert [97, 99] 7, .erase [97, 98]] ∧
    KeyMap.get (run [.insert [97] 5, .insert [97, 98] 6, .insert [97, 99] 7, .erase [97, 98]]) [97] = some 5 := by
  constructor
  · intro pre k post e
    have hlen := congrArg List.length e
    simp at hlen
    match pre, e with
    | [], e => simp at e
    | [a], e => simp at e
    | [a, b], e => simp at e
    | [a, b, c], e =>
      simp only [List.cons_append, List.nil_append, List.cons.injEq, Op.erase.injEq] at e
      obtain ⟨rfl, rfl, rfl, rfl, _⟩ := e
      decide
    | a :: b :: c :: d :: e', e => simp at hlen; omega
  · decide

/-- C02, inserting never changes a value: after any history, an insertion of another key leaves `at` alone, and the new
key reads its value. -/
theorem C02_insert (ops : List Op) (ok : ∀ op ∈ ops, op.Ok) (k : List Nat) (v : Nat) (hk : k ≠ []) (hb : Bytes k)
    (hv : v ≤ 2147483647) :
    ∃ h h', baseRun ops = some h ∧ baseRun (ops ++ [.insert k v]) = some h' ∧
      (∀ k', Bytes k' → k' ≠ k → Base.atKey h' k' = Base.atKey h k') ∧
      (Base.contains h k = some false → Base.atKey h' k = some (some (v : Int))) ∧
      (Base.contains h k = some true → Base.atKey h' k = Base.atKey h k) := by
  obtain ⟨h, F, e, R⟩ := base_run ops rep_empty ok
  obtain ⟨h', F', e', R'⟩ := base_step R (.insert k v) ⟨hb, hv⟩
  refine ⟨h, h', e, ?_, ?_, ?_, ?_⟩
  · unfold baseRun
    rw [List.foldlM_append, e]; simpa using e'
  · intro k' hb' hne
    rw [R'.atKey hb', R.atKey hb']
    simp only [stepLossy, step]
    split
    · rfl
    · unfold KeyMap.get
      rw [List.find?_cons_of_neg (by simpa using fun w => hne w.symm)]
  · intro hc
    rw [R.contains hb] at hc
    rw [R'.atKey hb]
    have hc : (KeyMap.get (ops.foldl stepLossy []) k).isSome = false := by simpa using hc
    simp only [stepLossy, step]
    rw [if_neg (by simp [hk, hc])]
    simp [KeyMap.get]
  · intro hc
    rw [R.contains hb] at hc
    rw [R'.atKey hb, R.atKey hb]
    have hc : (KeyMap.get (ops.foldl stepLossy []) k).isSome = true := by simpa using hc
    simp only [stepLossy, step]
    rw [if_pos (Or.inr hc)]

example : ∃ (ops : List Op) (k : List Nat), (∀ op ∈ ops, op.Ok) ∧ k ≠ [] ∧ Bytes k ∧ (run ops).length = 3 :=
  ⟨demo, [97, 98, 99], by decide, by decide, by decide, by decide⟩

/-- C03. No operation of any history, and no query after it, reads or writes outside the array, fails an assertion or
runs forever (all of these are the outcome `none` of the model). -/
theorem C03_base (ops : List Op) (ok : ∀ op ∈ ops, op.Ok) :
    ∃ h, baseRun ops = some h ∧ ∀ k, Bytes k →
      (∃ r, Base.contains h k = some r) ∧ (∃ r, Base.lookup h k = some r) ∧ (∃ r, Base.search h k = some r) ∧
      (∃ r, Base.find h k = some r) ∧ (∃ r, Base.atKey h k = some r) := by
  obtain ⟨h, F, e, R⟩ := base_run ops rep_empty ok
  refine ⟨h, e, fun k hb => ⟨⟨_, R.contains hb⟩, ?_, ?_, ?_, ⟨_, R.atKey hb⟩⟩⟩
  · obtain ⟨i, p, r, e, _⟩ := R.lookup hb; exact ⟨_, e⟩
  · obtain ⟨i, p, r, e, _⟩ := R.lookup hb; exact ⟨_, by rw [Base.search, e]; rfl⟩
  · rcases R.find hb with ⟨_, i, _, _, _, e⟩ | ⟨_, e⟩ <;> exact ⟨_, e⟩

/-- C03 for the stable trie. -/
theorem C03_stable (ops : List Op) (ok : ∀ op ∈ ops, op.Ok) :
    ∃ h, stableRun ops = some h ∧ ∀ k, Bytes k →
      (∃ r, Stable.contains h k = some r) ∧ (∃ r, Stable.find h k = some r) ∧
      (∃ r, Stable.atKey h k = some r) ∧ (∃ r, Stable.terminator h k = some r) := by
  obtain ⟨h, F, e, R⟩ := stable_run ops srep_empty ok
  refine ⟨h, e, fun k hb => ⟨⟨_, R.contains hb⟩, ?_, ⟨_, R.atKey hb⟩, ⟨_, R.terminator hb⟩⟩⟩
  rcases R.find hb with ⟨_, i, _, _, _, e⟩ | ⟨_, e⟩ <;> exact ⟨_, e⟩

/-- `p` is a path of a trie with these keys: the root, or a prefix of a key. -/
def IsPath (m : KMap) (p : List Nat) : Prop := p = [] ∨ ∃ k ∈ m.map Prod.fst, p <+: k

theorem path_iff {h F m} (R : Rep h F m) {p} (hb : Bytes p) : tr h p ≠ none ↔ IsPath m p := by
  by_cases hp : p = []
  · subst hp; exact ⟨fun _ => Or.inl rfl, fun _ => by simp [tr, walk]⟩
  · rw [R.C.mem_of_node hb hp]
    constructor
    · rintro (⟨k, v, a, b, _⟩ | ⟨v, a⟩)
      · exact Or.inr ⟨k, List.mem_map.mpr ⟨_, a, rfl⟩, b⟩
      · exact Or.inr ⟨p, List.mem_map.mpr ⟨_, a, rfl⟩, List.prefix_rfl⟩
    · rintro (q | ⟨k, a, b⟩)
      · exact absurd q hp
      · obtain ⟨⟨k', v⟩, c, rfl⟩ := List.mem_map.mp a
        by_cases e : p = k'
        · exact Or.inr ⟨v, e ▸ c⟩
        · exact Or.inl ⟨k', v, c, b, e⟩

/-- C04. `search` answers a node exactly for the paths of the trie, a different one for every path; `lookup` splits the
key after its longest prefix that is a path and answers the node of that prefix. -/
theorem C04_lookup (ops : List Op) (ok : ∀ op ∈ ops, op.Ok) :
    ∃ h, baseRun ops = some h ∧
      (∀ k, Bytes k → ∃ i, Base.search h k = some i ∧ (i ≠ 0 ↔ IsPath (run ops) k)) ∧
      (∀ k k' i, Bytes k → Bytes k' → i ≠ 0 → Base.search h k = some i → Base.search h k' = some i → k = k') ∧
      (∀ k, Bytes k → ∃ i p r, Base.lookup h k = some (i, r) ∧ k = p ++ r ∧ IsPath (run ops) p ∧
        (∀ q, q <+: k → IsPath (run ops) q → q <+: p) ∧ Base.search h p = some i ∧ i ≠ 0) := by
  obtain ⟨h, F, e, R⟩ := base_run ops rep_empty ok
  have hkeys := keys_run ops (rfl : ([] : KMap).map Prod.fst = ([] : KMap).map Prod.fst)
  have hpath : ∀ p, Bytes p → (tr h p ≠ none ↔ IsPath (run ops) p) := by
    intro p hb
    rw [path_iff R hb]
    unfold IsPath run
    rw [hkeys]
  have hsearch : ∀ k, Bytes k → ∃ i, Base.search h k = some i ∧
      ((i ≠ 0 ∧ walk h 1 k = some i) ∨ (i = 0 ∧ walk h 1 k = none)) := by
    intro k hb
    obtain ⟨i, p, r, e, hk, hw, hn⟩ := R.lookup hb
    have hi := ((R.I.root_used hw).lt R.I.fl).1
    cases r with
    | nil =>
      simp only [List.append_nil] at hk; subst hk
      exact ⟨i, by rw [Base.search, e]; rfl, Or.inl ⟨by omega, hw⟩⟩
    | cons l ls =>
      refine ⟨0, by rw [Base.search, e]; rfl, Or.inr ⟨rfl, ?_⟩⟩
      have : tr h k = none := by
        rw [hk]
        have := tr_none_append (t := ls) (hn l ls rfl)
        simpa using this
      cases hwk : walk h 1 k with
      | none => rfl
      | some j => rw [tr_of_walk hwk] at this; simp at this
  refine ⟨h, e, ?_, ?_, ?_⟩
  · intro k hb
    obtain ⟨i, e, q⟩ := hsearch k hb
    refine ⟨i, e, ?_⟩
    rw [← hpath k hb]
    rcases q with ⟨a, b⟩ | ⟨a, b⟩
    · rw [tr_of_walk b]; simp [a]
    · simp [a, tr, b]
  · intro k k' i hb hb' hi e e'
    obtain ⟨j, ej, q⟩ := hsearch k hb
    obtain ⟨j', ej', q'⟩ := hsearch k' hb'
    rw [ej] at e; rw [ej'] at e'
    obtain rfl : j = i := by simpa using e
    obtain rfl : j' = j := by simpa using e'
    rcases q with ⟨a, b⟩ | ⟨a, b⟩
    · rcases q' with ⟨a', b'⟩ | ⟨a', b'⟩
      · exact R.I.walk_inj b b'
      · exact absurd a' hi
    · exact absurd a hi
  · intro k hb
    obtain ⟨i, p, r, e, hk, hw, hn⟩ := R.lookup hb
    have hpb : Bytes p := fun b hm => hb b (by rw [hk]; simp [hm])
    have hi := ((R.I.root_used hw).lt R.I.fl).1
    refine ⟨i, p, r, e, hk, ?_, ?_, ?_, by omega⟩
    · rw [← hpath p hpb, tr_of_walk hw]; simp
    · intro q hq hqp
      cases r with
      | nil => simp at hk; rw [← hk]; exact hq
      | cons l ls =>
        rcases prefix_cases hk hq with z | z
        · exact z
        · exfalso
          have hqb : Bytes q := fun b hm => hb b (hq.subset hm)
          rw [← hpath q hqb] at hqp
          obtain ⟨t, rfl⟩ := z
          exact hqp (tr_none_append (hn l ls rfl))
    · obtain ⟨j, ej, q⟩ := hsearch p hpb
      rcases q with ⟨a, b⟩ | ⟨a, b⟩
      · rw [hw] at b
        obtain rfl : i = j := by simpa using b
        exact ej
      · rw [hw] at b; simp at b

example : (∀ op ∈ demo, op.Ok) ∧ IsPath (run demo) [97, 98] ∧ ¬ IsPath (run demo) [97, 99] := by
  refine ⟨by decide, Or.inr ⟨[97, 98, 99, 0, 255], by decide, by decide⟩, ?_⟩
  rintro (h | ⟨k, hk, hp⟩)
  · simp at h
  · revert hp; revert hk
    have : (run demo).map Prod.fst = [[97, 98, 99, 0, 255], [98], [97]] := by decide
    rw [this]
    intro hk
    simp at hk
    rcases hk with rfl | rfl | rfl <;> decide

/-- C07. Over every history the stable trie holds exactly the live keys, each with the last value written. -/
theorem C07_map (ops : List Op) (ok : ∀ op ∈ ops, op.Ok) :
    ∃ h, stableRun ops = some h ∧ h.base 0 = (run ops).length ∧
      (∀ k, Bytes k → Stable.contains h k = some (decide (k ∈ (run ops).map Prod.fst))) ∧
      ∀ k, Bytes k → Stable.atKey h k = some ((KeyMap.get (run ops) k).map Int.ofNat) := by
  obtain ⟨h, F, e, R⟩ := stable_run ops srep_empty ok
  refine ⟨h, e, R.size, fun k hb => ?_, fun k hb => R.atKey hb⟩
  rw [R.contains hb]
  congr 1
  have gen : ∀ m : KMap, (KeyMap.get m k).isSome = true ↔ k ∈ m.map Prod.fst := by
    intro m
    unfold KeyMap.get
    rw [Option.isSome_map, List.find?_isSome]
    simp
  rw [Bool.eq_iff_iff, gen, decide_eq_true_iff]
  rfl

example : (∀ op ∈ demo, op.Ok) ∧ KeyMap.get (run demo) [97] = some 5 ∧
    KeyMap.get (run demo) [97, 98] = none := by decide

/-- C08, full statement: inserting further keys never changes the index of the terminator of a stored key. -/
def C08_statement : Prop := ∀ (ops : List Op) (k k' : List Nat) (v : Nat) (h h' : Heap) (i : Nat),
  (∀ op ∈ ops, op.Ok) → Bytes k → (Op.insert k' v).Ok → stableRun ops = some h →
  stableRun (ops ++ [.insert k' v]) = some h' → Stable.terminator h k = some (some i) →
  Stable.terminator h' k = some (some i)

/-- C08 is false: after inserting "a" and "b", inserting "ab" moves the terminator of "a" from 257 to 259. -/
theorem C08_statement_false : ¬ C08_statement := by
  intro H
  let ops : List Op := [.insert [97] 0, .insert [98] 0]
  have ok : ∀ op ∈ ops, op.Ok := by decide
  have ok' : ∀ op ∈ ops ++ [.insert [97, 98] 0], op.Ok := by decide
  obtain ⟨h, F, e, R⟩ := stable_run ops srep_empty ok
  obtain ⟨h', F', e', R'⟩ := stable_run (ops ++ [.insert [97, 98] 0]) srep_empty ok'
  have h1 : (stableRun ops).bind (Stable.terminator · [97]) = some (some 257) := by decide +kernel
  have h2 : (stableRun (ops ++ [.insert [97, 98] 0])).bind (Stable.terminator · [97]) = some (some 259) := by
    decide +kernel
  have t1 : Stable.terminator h [97] = some (some 257) := by
    rw [show stableRun ops = some h from e] at h1; exact h1
  have t2 : Stable.terminator h' [97] = some (some 259) := by
    rw [show stableRun (ops ++ [.insert [97, 98] 0]) = some h' from e'] at h2; exact h2
  have := H ops [97] [97, 98] 0 h h' 257 ok (by decide) (by decide) e e' t1
  rw [t2] at this
  simp at this

/-- C08, partial: the terminator index of a stored key does not change when a key that does not extend it is inserted,
when a value is written, or when another key is erased.  Missing: inserting an extension of the key, which can move it
(`C08_statement_false`). -/
theorem C08_partial (ops : List Op) (op : Op) (k : List Nat) (i : Nat) (h h' : Heap)
    (ok : ∀ o ∈ ops, o.Ok) (ok' : op.Ok) (hb : Bytes k)
    (hop : match op with
      | .insert k' _ => ¬ (k <+: k')
      | .erase k' => k' ≠ k
      | .set _ _ => True
      | .clear => False)
    (e : stableRun ops = some h) (e' : stableRun (ops ++ [op]) = some h')
    (ht : Stable.terminator h k = some (some i)) : Stable.terminator h' k = some (some i) := by
  obtain ⟨h0, F, e0, R⟩ := stable_run ops srep_empty ok
  obtain rfl : h = h0 := by
    rw [show stableRun ops = some h0 from e0] at e; simpa using e.symm
  have es : stableStep h op = some h' := by
    unfold stableRun at e'
    rw [List.foldlM_append, e0] at e'
    simpa using e'
  rw [R.terminator hb] at ht
  have hlive : (KeyMap.get (ops.foldl step []) k).isSome = true := by
    cases hg : (KeyMap.get (ops.foldl step []) k).isSome with
    | true => rfl
    | false => rw [hg] at ht; simp at ht
  rw [if_pos hlive] at ht
  have hw : walk h 1 (k ++ [256]) = some i := by simpa using ht
  obtain ⟨v, hv⟩ := Option.isSome_iff_exists.mp hlive
  have hm := (get_some R.W).mp hv
  suffices hs : ∃ F' m', SRep h' F' m' ∧ (KeyMap.get m' k).isSome = true ∧ walk h' 1 (k ++ [256]) = some i by
    obtain ⟨F', m', R', a, b⟩ := hs
    rw [R'.terminator hb, if_pos a, b]
  have isSome_of : ∀ {m' : KMap} {u}, WF m' → (k, u) ∈ m' → (KeyMap.get m' k).isSome = true := by
    intro m' u W hm; rw [(get_some W).mpr hm]; rfl
  cases op with
  | insert k' v' =>
    by_cases hk : k' = []
    · subst hk
      have : v' ≤ valueMax := ok'.2
      simp only [stableStep, Stable.insertKey, this, if_true, Option.map_some, Option.some.injEq] at es
      subst es
      exact ⟨F, _, R, hlive, hw⟩
    · obtain ⟨h2, F2, j, e2, R2, _, mv⟩ := R.insert (v := v') hk ok'.1 ok'.2
      simp only [stableStep, e2, Option.map_some, Option.some.injEq] at es
      subst es
      refine ⟨F2, _, R2, ?_, mv _ _ hw ?_⟩
      · refine isSome_of (u := v) R2.W ?_
        split
        · exact hm
        · exact List.mem_cons_of_mem _ hm
      · intro p l hp e
        have : k = p := (List.append_inj' e rfl).1
        exact hop (this ▸ hp)
  | erase k' =>
    obtain ⟨h2, F2, e2, R2, mv⟩ := R.erase ok'
    simp only [stableStep, e2, Option.some.injEq] at es
    subst es
    have hm2 : (k, v) ∈ (ops.foldl step []).filter fun e => e.1 ≠ k' :=
      mem_filter_key.mpr ⟨hm, fun w => hop w.symm⟩
    refine ⟨F2, _, R2, isSome_of R2.W hm2, mv _ _ ?_ hw ?_ ?_⟩
    · intro w; rw [w] at hm2; simp at hm2
    · intro w
      have := ok' 256 (w.subset (by simp)); omega
    · intro w
      exact hop ((List.append_inj' w rfl).1).symm
  | set k' v' =>
    obtain ⟨h2, e2, R2, mv⟩ := R.setKey (v := v') ok'.1
    simp only [stableStep, e2, Option.map_some, Option.some.injEq] at es
    subst es
    refine ⟨F, _, R2, ?_, by rw [mv]; exact hw⟩
    by_cases hk : k = k'
    · exact isSome_of (u := v') R2.W (mem_set.mpr (Or.inl ⟨hk, rfl, v, hk ▸ hm⟩))
    · exact isSome_of (u := v) R2.W (mem_set.mpr (Or.inr ⟨hk, hm⟩))
  | clear => exact absurd hop (by simp)

example : ∃ (ops : List Op) (op : Op) (k : List Nat), (∀ o ∈ ops, o.Ok) ∧ op.Ok ∧ Bytes k ∧
    (KeyMap.get (run ops) k).isSome = true ∧ (∃ k' v, op = .insert k' v ∧ ¬ (k <+: k')) :=
  ⟨[.insert [97] 0, .insert [98] 0], .insert [98, 98] 3, [97], by decide, by decide, by decide, by decide,
    _, _, rfl, by decide⟩

/-- C61, full statement: `trie[key] = v` stores `v` under `key` and keeps all other keys. -/
def C61_statement : Prop := ∀ (ops : List Op) (k : List Nat) (v : Nat) (h : Heap),
  (∀ op ∈ ops, op.Ok) → Bytes k → v ≤ 2147483647 → baseRun ops = some h →
  ∃ h', Base.indexSet h k v = some h' ∧
    (Base.size h' = Base.size h ∨ Base.size h' = Base.size h + 1)

/-- C61 is false for the empty key: on an empty trie `t[""] = 5` makes `size()` answer -5. -/
theorem C61_statement_false : ¬ C61_statement := by
  intro H
  obtain ⟨h', e, q⟩ := H [] [] 5 Heap.empty (by simp) (by decide) (by omega) rfl
  have : (Base.indexSet Heap.empty [] 5).map Base.size = some (-5) := by decide
  rw [e] at this
  have : Base.size h' = -5 := by simpa using this
  rw [this] at q
  revert q
  decide

/-- C61, partial: for non-empty keys, in both tries. Missing: the empty key. -/
theorem C61_partial (ops : List Op) (k : List Nat) (v : Nat) (ok : ∀ op ∈ ops, op.Ok) (hk : k ≠ []) (hb : Bytes k) :
    (∃ h h', baseRun ops = some h ∧ Base.indexSet h k v = some h' ∧
      Base.atKey h' k = some (some (v : Int)) ∧
      (∀ k', Bytes k' → k' ≠ k → Base.atKey h' k' = Base.atKey h k') ∧
      (∀ k', Bytes k' → k' ≠ k → Base.contains h' k' = Base.contains h k') ∧
      Base.size h' = Base.size h + if Base.contains h k = some true then 0 else 1) ∧
    (∃ h h', stableRun ops = some h ∧ Stable.indexSet h k v = some h' ∧
      Stable.atKey h' k = some (some (v : Int)) ∧
      (∀ k', Bytes k' → k' ≠ k → Stable.atKey h' k' = Stable.atKey h k') ∧
      h'.base 0 = h.base 0 + if Stable.contains h k = some true then 0 else 1) := by
  have gset : ∀ (m : KMap), WF m → (∃ u, (k, u) ∈ m) → KeyMap.get (setMap m k v) k = some v := by
    rintro m W ⟨u, hu⟩
    exact (get_some W.set).mpr (mem_set.mpr (Or.inl ⟨rfl, rfl, u, hu⟩))
  have gother : ∀ (m : KMap) k', k' ≠ k → KeyMap.get (setMap m k v) k' = KeyMap.get m k' := by
    intro m k' hne
    induction m with
    | nil => rfl
    | cons e m ih =>
      unfold KeyMap.get setMap at *
      by_cases h1 : e.1 = k
      · have h2 : e.1 ≠ k' := by rw [h1]; exact fun w => hne w.symm
        rw [List.map_cons, if_pos h1, List.find?_cons_of_neg (by simpa using fun w => hne w.symm),
          List.find?_cons_of_neg (by simpa using h2)]
        exact ih
      · rw [List.map_cons, if_neg h1]
        by_cases h2 : e.1 = k'
        · rw [List.find?_cons_of_pos (by simpa using h2), List.find?_cons_of_pos (by simpa using h2)]
        · rw [List.find?_cons_of_neg (by simpa using h2), List.find?_cons_of_neg (by simpa using h2)]
          exact ih
  have gcons : ∀ (m : KMap) k', k' ≠ k →
      KeyMap.get (if (KeyMap.get m k).isSome = true then m else (k, 0) :: m) k' = KeyMap.get m k' := by
    intro m k' hne
    split
    · rfl
    · unfold KeyMap.get
      rw [List.find?_cons_of_neg (by simpa using fun w => hne w.symm)]
  have gmem : ∀ (m : KMap), WF m →
      WF (if (KeyMap.get m k).isSome = true then m else (k, 0) :: m) ∧
      ∃ u, (k, u) ∈ (if (KeyMap.get m k).isSome = true then m else (k, 0) :: m) := by
    intro m W
    split
    · rename_i h
      obtain ⟨u, hu⟩ := Option.isSome_iff_exists.mp h
      exact ⟨W, u, (get_some W).mp hu⟩
    · rename_i h
      refine ⟨W.cons hk hb (get_none.mp ?_), 0, by simp⟩
      simpa using h
  constructor
  · obtain ⟨h, F, e, R⟩ := base_run ops rep_empty ok
    obtain ⟨h', F', e', R'⟩ := R.indexSet (v := v) hb hk
    refine ⟨h, h', e, e', ?_, ?_, ?_, ?_⟩
    · rw [R'.atKey hb, gset _ (gmem _ R.W).1 (gmem _ R.W).2]; rfl
    · intro k' hb' hne
      rw [R'.atKey hb', R.atKey hb', gother _ _ hne, gcons _ _ hne]
    · intro k' hb' hne
      rw [R'.contains hb', R.contains hb', gother _ _ hne, gcons _ _ hne]
    · rw [R.contains hb]
      have h1 := R'.size
      have h2 := R.size
      show h'.base 0 = h.base 0 + _
      rw [h1, h2]
      simp only [setMap, List.length_map, Option.some.injEq]
      split <;> simp
  · obtain ⟨h, F, e, R⟩ := stable_run ops srep_empty ok
    obtain ⟨h', F', e', R'⟩ := R.indexSet (v := v) hb hk
    refine ⟨h, h', e, e', ?_, ?_, ?_⟩
    · rw [R'.atKey hb, gset _ (gmem _ R.W).1 (gmem _ R.W).2]; rfl
    · intro k' hb' hne
      rw [R'.atKey hb', R.atKey hb', gother _ _ hne, gcons _ _ hne]
    · rw [R.contains hb]
      have h1 := R'.size
      have h2 := R.size
      rw [h1, h2]
      simp only [setMap, List.length_map, Option.some.injEq]
      split <;> simp

example : (∀ op ∈ demo, op.Ok) ∧ Bytes [97, 98] ∧ (KeyMap.get (run demo) [97, 98]).isSome = false := by decide

end Verif.Props.Trie
