import Verif.Proof.TrieStable
import Verif.Proof.Serialize
import Verif.Model.TrieWide

/-!
`basic_trie`: label strings are stored as their big-endian bytes.
-/
namespace Verif.Proof.Trie
open Verif.Spec Verif.Model.Trie Verif.Spec.KeyMap Verif.Model.Serialize Verif.Proof.Serialize

/-- A string of `w`-byte labels. -/
def Wd (w : Nat) (k : List Nat) : Prop := ∀ l ∈ k, l < 256 ^ w

theorem bytesOf_length (w : Nat) (k : List Nat) : (bytesOf w k).length = k.length * w := by
  induction k with
  | nil => simp [bytesOf]
  | cons a k ih =>
    have : bytesOf w (a :: k) = serialize w a ++ bytesOf w k := rfl
    rw [this, List.length_append, ih, serialize_length, List.length_cons, Nat.add_mul]; omega

theorem bytesOf_byte (w : Nat) (k : List Nat) : ∀ b ∈ bytesOf w k, b < 256 := by
  intro b hb
  obtain ⟨x, _, h⟩ := List.mem_flatMap.mp hb
  exact serialize_bytes w x b h

theorem bytesOf_append (w : Nat) (a b : List Nat) : bytesOf w (a ++ b) = bytesOf w a ++ bytesOf w b := by
  simp [bytesOf]

theorem serialize_inj {w a b : Nat} (ha : a < 256 ^ w) (hb : b < 256 ^ w) (h : serialize w a = serialize w b) :
    a = b := by
  have := congrArg beValue h
  rwa [beValue_serialize, beValue_serialize, Nat.mod_eq_of_lt ha, Nat.mod_eq_of_lt hb] at this

theorem bytesOf_prefix {w : Nat} (hw : 0 < w) : ∀ {p k : List Nat}, Wd w p → Wd w k →
    (bytesOf w p <+: bytesOf w k ↔ p <+: k) := by
  intro p
  induction p with
  | nil => intro k _ _; simp [bytesOf]
  | cons a p ih =>
    intro k hp hk
    cases k with
    | nil =>
      have hl := serialize_length w a
      constructor
      · intro h
        have := h.length_le
        rw [bytesOf_length, bytesOf_length] at this
        simp at this; omega
      · intro h; simp at h
    | cons b k =>
      have e1 : bytesOf w (a :: p) = serialize w a ++ bytesOf w p := rfl
      have e2 : bytesOf w (b :: k) = serialize w b ++ bytesOf w k := rfl
      have ih := @ih k (fun l hl => hp l (by simp [hl])) (fun l hl => hk l (by simp [hl]))
      rw [e1, e2]
      constructor
      · rintro ⟨t, ht⟩
        rw [List.append_assoc] at ht
        obtain ⟨h1, h2⟩ := List.append_inj ht (by rw [serialize_length, serialize_length])
        rw [serialize_inj (hp a (by simp)) (hk b (by simp)) h1]
        exact (List.prefix_cons_inj b).mpr (ih.mp ⟨t, h2⟩)
      · intro h
        obtain ⟨rfl, h2⟩ := List.cons_prefix_cons.mp h
        exact (List.prefix_append_right_inj _).mpr (ih.mpr h2)

theorem bytesOf_inj {w : Nat} (hw : 0 < w) {a b : List Nat} (ha : Wd w a) (hb : Wd w b) :
    bytesOf w a = bytesOf w b ↔ a = b := by
  constructor
  · intro h
    have p := (bytesOf_prefix hw ha hb).mp (h ▸ List.prefix_rfl)
    refine p.eq_of_length ?_
    have := congrArg List.length h
    rw [bytesOf_length, bytesOf_length] at this
    exact Nat.eq_of_mul_eq_mul_right hw this
  · rintro rfl; rfl

/-- The stored bytes of a map over label strings. -/
def enc (w : Nat) (m : KMap) : KMap := m.map fun e => (bytesOf w e.1, e.2)

def WdMap (w : Nat) (m : KMap) : Prop := ∀ e ∈ m, Wd w e.1

/-- Operations on label strings as operations on their bytes. -/
def encOp (w : Nat) : Op → Op
  | .insert k v => .insert (bytesOf w k) v
  | .erase k => .erase (bytesOf w k)
  | .set k v => .set (bytesOf w k) v
  | .clear => .clear

/-- Labels have `w` bytes and values fit. -/
def WideOk (w : Nat) : Op → Prop
  | .insert k v => Wd w k ∧ v ≤ 2147483647
  | .erase k => Wd w k
  | .set k v => Wd w k ∧ v ≤ 2147483647
  | .clear => True

section
variable {w : Nat} (hw : 0 < w)
include hw

theorem enc_get {m : KMap} (hm : WdMap w m) {k} (hk : Wd w k) :
    KeyMap.get (enc w m) (bytesOf w k) = KeyMap.get m k := by
  unfold KeyMap.get
  induction m with
  | nil => rfl
  | cons e m ih =>
    have he := hm e (by simp)
    have ih := ih (fun x hx => hm x (by simp [hx]))
    have : enc w (e :: m) = (bytesOf w e.1, e.2) :: enc w m := rfl
    rw [this, List.find?_cons, List.find?_cons]
    by_cases q : e.1 = k
    · subst q; simp
    · rw [show decide (bytesOf w e.1 = bytesOf w k) = false by simpa [bytesOf_inj hw he hk] using q,
        show decide (e.1 = k) = false by simpa using q]
      exact ih

theorem enc_filter {m : KMap} (hm : WdMap w m) {k} (hk : Wd w k) :
    (enc w m).filter (fun e => e.1 ≠ bytesOf w k) = enc w (m.filter fun e => e.1 ≠ k) := by
  unfold enc
  rw [List.filter_map]
  congr 1
  apply List.filter_congr
  intro e he
  simp only [Function.comp]
  have := bytesOf_inj hw (hm e he) hk
  simp [this]

theorem enc_lone {m : KMap} (hm : WdMap w m) {p k} (hp : Wd w p) (hk : Wd w k) :
    lone (enc w m) (bytesOf w p) (bytesOf w k) ↔ lone m p k := by
  unfold lone
  rw [enc_get hw hm hk, bytesOf_prefix hw hp hk, ne_eq, bytesOf_inj hw hp hk]
  have : (∀ e ∈ enc w m, bytesOf w p <+: e.1 → e.1 ≠ bytesOf w p → e.1 = bytesOf w k) ↔
      (∀ e ∈ m, p <+: e.1 → e.1 ≠ p → e.1 = k) := by
    constructor
    · intro h e he a b
      have := h (bytesOf w e.1, e.2) (List.mem_map.mpr ⟨e, he, rfl⟩)
        ((bytesOf_prefix hw hp (hm e he)).mpr a) (by rw [ne_eq, bytesOf_inj hw (hm e he) hp]; exact b)
      exact (bytesOf_inj hw (hm e he) hk).mp this
    · intro h e he a b
      obtain ⟨x, hx, rfl⟩ := List.mem_map.mp he
      have := h x hx ((bytesOf_prefix hw hp (hm x hx)).mp a) (by rintro rfl; exact b rfl)
      rw [this]
  rw [this]

theorem bytesOf_eq_nil {k : List Nat} : bytesOf w k = [] ↔ k = [] := by
  rw [← List.length_eq_zero_iff, bytesOf_length, ← List.length_eq_zero_iff (l := k)]
  constructor
  · intro h; rcases Nat.mul_eq_zero.mp h with h | h <;> omega
  · intro h; rw [h]; simp

theorem enc_step {m : KMap} (hm : WdMap w m) {op : Op} (ok : WideOk w op) :
    step (enc w m) (encOp w op) = enc w (step m op) := by
  cases op with
  | insert k v =>
    simp only [encOp, step]
    rw [enc_get hw hm ok.1]
    by_cases q : k = [] ∨ (KeyMap.get m k).isSome = true
    · rw [if_pos q, if_pos (by rw [bytesOf_eq_nil hw]; exact q)]
    · rw [if_neg q, if_neg (by rw [bytesOf_eq_nil hw]; exact q)]; rfl
  | erase k => exact enc_filter hw hm ok
  | set k v =>
    simp only [encOp, step, enc, List.map_map]
    apply List.map_congr_left
    intro e he
    simp only [Function.comp]
    by_cases q : e.1 = k
    · subst q; simp
    · rw [if_neg q, if_neg (by rw [bytesOf_inj hw (hm e he) ok.1]; exact q)]
  | clear => rfl

theorem enc_stepLossy {m : KMap} (hm : WdMap w m) {op : Op} (ok : WideOk w op) :
    stepLossy (enc w m) (encOp w op) = enc w (stepLossy m op) := by
  cases op with
  | erase k =>
    simp only [encOp, stepLossy, eraseLossy]
    rw [enc_filter hw hm ok]
    show List.map _ (List.map _ _) = List.map _ (List.map _ _)
    rw [List.map_map, List.map_map]
    apply List.map_congr_left
    intro e he
    simp only [Function.comp]
    have := enc_lone hw hm (hm e (List.mem_filter.mp he).1) ok
    by_cases q : lone m e.1 k
    · rw [if_pos q, if_pos (this.mpr q)]
    · rw [if_neg q, if_neg (fun z => q (this.mp z))]
  | insert k v => exact enc_step hw hm ok
  | set k v => exact enc_step hw hm ok
  | clear => rfl

omit hw in
theorem WdMap.step {m : KMap} (hm : WdMap w m) {op : Op} (ok : WideOk w op) : WdMap w (step m op) := by
  cases op with
  | insert k v =>
    simp only [KeyMap.step]
    split
    · exact hm
    · intro e he
      rcases List.mem_cons.mp he with rfl | he
      · exact ok.1
      · exact hm e he
  | erase k => exact fun e he => hm e (List.mem_filter.mp he).1
  | set k v =>
    intro e he
    obtain ⟨x, hx, rfl⟩ := List.mem_map.mp he
    split
    · exact ok.1
    · exact hm x hx
  | clear => exact fun e he => by simp [KeyMap.step] at he

omit hw in
theorem WdMap.stepLossy {m : KMap} (hm : WdMap w m) {op : Op} (ok : WideOk w op) :
    WdMap w (stepLossy m op) := by
  cases op with
  | erase k =>
    intro e he
    obtain ⟨x, hx, rfl⟩ := List.mem_map.mp he
    have := hm x (List.mem_filter.mp hx).1
    split <;> exact this
  | insert k v => exact hm.step ok
  | set k v => exact hm.step ok
  | clear => exact fun e he => by simp [KeyMap.stepLossy, KeyMap.step] at he

omit hw in
theorem encOp_ok {op : Op} (ok : WideOk w op) : (encOp w op).Ok := by
  cases op with
  | insert k v => exact ⟨bytesOf_byte w k, ok.2⟩
  | erase k => exact bytesOf_byte w k
  | set k v => exact ⟨bytesOf_byte w k, ok.2⟩
  | clear => trivial

end

section
variable {h : Heap} {F : Nat → Prop}

/-- Going up `|s|` times from the node of `p ++ s` reaches the node of `p`. -/
theorem climb_spec (I : Inv h F) {p : List Nat} {q : Nat} (hp : walk h 1 p = some q) :
    ∀ (n : Nat) (s : List Nat) (i : Nat), s.length = n → walk h 1 (p ++ s) = some i → climb h n i = some q := by
  intro n
  induction n with
  | zero =>
    intro s i hs e
    rw [List.length_eq_zero_iff.mp hs, List.append_nil, hp] at e
    simpa [climb] using e.symm
  | succ n ih =>
    intro s i hs e
    rcases List.eq_nil_or_concat s with rfl | ⟨t, l, rfl⟩
    · simp at hs
    · rw [List.concat_eq_append] at e hs
      rw [← List.append_assoc, walk_snoc] at e
      cases ht : walk h 1 (p ++ t) with
      | none => rw [ht] at e; simp at e
      | some j =>
        rw [ht] at e
        simp only [Option.bind_some] at e
        obtain ⟨u, i2, c⟩ := I.child_used (I.root_used ht) e
        rw [climb, if_pos (by omega), rdC, if_pos (u.lt I.fl).2]
        simp only [Option.bind_some, c]
        rw [if_pos (by omega), Int.toNat_natCast]
        exact ih t j (by simpa using hs) ht

theorem skip_gen (I : Inv h F) {k} (hb : ∀ b ∈ k, b < 256) :
    ∃ i p r, skipLoop h 1 k = some (i, r) ∧ k = p ++ r ∧ walk h 1 p = some i ∧
      (∀ l ls, r = l :: ls → tr h (p ++ [l]) = none) := by
  obtain ⟨i, p, r, a, b, c, d⟩ := skip_spec I k [] 1 rfl (fun b m => by have := hb b m; omega)
  exact ⟨i, p, r, a, b, by simpa using c, by simpa using d⟩

theorem bytesOf_take (w : Nat) (k : List Nat) (n : Nat) : (bytesOf w k).take (n * w) = bytesOf w (k.take n) := by
  by_cases h : n ≤ k.length
  · conv => lhs; rw [← List.take_append_drop n k, bytesOf_append]
    rw [List.take_append_of_le_length (by rw [bytesOf_length]; simp [h]), List.take_of_length_le]
    rw [bytesOf_length]; simp [h]
  · rw [List.take_of_length_le, List.take_of_length_le (by omega)]
    rw [bytesOf_length]; exact Nat.mul_le_mul_right _ (by omega)

/-- `lookup` on label strings stops at the longest prefix of whole labels that labels a node. -/
theorem wideLookup_spec {w : Nat} (hw : 0 < w) (I : Inv h F) (k : List Nat) :
    ∃ i p r, wideLookup w h k = some (i, r) ∧ k = p ++ r ∧ walk h 1 (bytesOf w p) = some i ∧
      (∀ l ls, r = l :: ls → walk h 1 (bytesOf w (p ++ [l])) = none) := by
  obtain ⟨i, p, r, e, hk, hwk, hn⟩ := skip_gen I (bytesOf_byte w k)
  have hlen : (bytesOf w k).length = p.length + r.length := by rw [hk]; simp
  have hcount : (bytesOf w k).length - r.length = p.length := by omega
  have hkl := bytesOf_length w k
  have hdm := Nat.div_add_mod p.length w
  have hmod := Nat.mod_lt p.length hw
  have hdle : p.length / w ≤ k.length := by
    apply Nat.le_of_mul_le_mul_right _ hw
    rw [Nat.mul_comm w] at hdm
    omega
  have hptake : p = (bytesOf w k).take p.length := by rw [hk]; simp
  have hsplit : bytesOf w (k.take (p.length / w)) = p.take (p.length / w * w) := by
    rw [← bytesOf_take, hk, List.take_append_of_le_length (Nat.div_mul_le_self _ _)]
  have hpp : p = bytesOf w (k.take (p.length / w)) ++ p.drop (p.length / w * w) := by
    rw [hsplit, List.take_append_drop]
  obtain ⟨q, hq⟩ := walk_take hwk (p.length / w * w)
  rw [← hsplit] at hq
  have hcl : climb h (p.length % w) i = some q := by
    refine climb_spec I hq _ (p.drop (p.length / w * w)) i ?_ (by rw [← hpp]; exact hwk)
    rw [List.length_drop, Nat.mul_comm]; omega
  refine ⟨q, k.take (p.length / w), k.drop (p.length / w), ?_, (List.take_append_drop _ _).symm, hq, ?_⟩
  · simp only [wideLookup, e, Option.bind_some, hcount, hcl, Option.map_some]
  · intro l ls hd
    have hk' : k = k.take (p.length / w) ++ l :: ls := by rw [← hd, List.take_append_drop]
    have hr : ∃ l' ls', r = l' :: ls' := by
      cases r with
      | nil =>
        exfalso
        have hk2 := congrArg List.length hk'
        simp only [List.length_append, List.length_take, List.length_cons] at hk2
        simp only [List.length_nil, Nat.add_zero, hkl] at hlen
        have : p.length / w = k.length := by rw [← hlen]; exact Nat.mul_div_cancel _ hw
        omega
      | cons a b => exact ⟨a, b, rfl⟩
    obtain ⟨l', ls', rfl⟩ := hr
    have hnone : walk h 1 (p ++ [l']) = none := by
      have := hn l' ls' rfl
      unfold tr at this
      simpa using this
    have hpre : p ++ [l'] <+: bytesOf w (k.take (p.length / w) ++ [l]) := by
      have h1 : p ++ [l'] <+: bytesOf w k := ⟨ls', by rw [hk]; simp⟩
      have h2 : bytesOf w (k.take (p.length / w) ++ [l]) <+: bytesOf w k := by
        refine ⟨bytesOf w ls, ?_⟩
        rw [← bytesOf_append]
        conv => rhs; rw [hk']
        simp
      refine List.prefix_of_prefix_length_le h1 h2 ?_
      rw [bytesOf_length]
      simp only [List.length_append, List.length_take, Nat.min_eq_left hdle, List.length_cons, List.length_nil]
      rw [Nat.add_mul]
      have : w * (p.length / w) = p.length / w * w := Nat.mul_comm _ _
      omega
    obtain ⟨t, ht⟩ := hpre
    rw [← ht, walk_append, hnone]; rfl

theorem wideLookup_walk {w : Nat} (hw : 0 < w) (I : Inv h F) (k : List Nat) :
    (∃ i, walk h 1 (bytesOf w k) = some i ∧ wideLookup w h k = some (i, [])) ∨
    (walk h 1 (bytesOf w k) = none ∧ ∃ i l ls, wideLookup w h k = some (i, l :: ls)) := by
  obtain ⟨i, p, r, e, hk, hp, hn⟩ := wideLookup_spec hw I k
  cases r with
  | nil =>
    simp only [List.append_nil] at hk; subst hk
    exact Or.inl ⟨i, hp, e⟩
  | cons l ls =>
    refine Or.inr ⟨?_, i, l, ls, e⟩
    rw [hk, show p ++ l :: ls = p ++ [l] ++ ls by simp, bytesOf_append, walk_append, hn l ls rfl]; rfl

theorem skip_walk (I : Inv h F) {s : List Nat} (hb : ∀ b ∈ s, b < 256) :
    (∃ i, walk h 1 s = some i ∧ skipLoop h 1 s = some (i, [])) ∨
    (walk h 1 s = none ∧ ∃ i l ls, skipLoop h 1 s = some (i, l :: ls)) := by
  obtain ⟨i, p, r, e, hk, hp, hn⟩ := skip_gen I hb
  cases r with
  | nil =>
    simp only [List.append_nil] at hk; subst hk
    exact Or.inl ⟨i, hp, e⟩
  | cons l ls =>
    refine Or.inr ⟨?_, i, l, ls, e⟩
    have := hn l ls rfl
    unfold tr at this
    rw [hk, show p ++ l :: ls = p ++ [l] ++ ls by simp, walk_append, Option.map_eq_none_iff.mp this]; rfl

theorem wideFind_eq {w : Nat} (hw : 0 < w) (I : Inv h F) (k : List Nat) :
    wideFind w h k = Base.find h (bytesOf w k) := by
  unfold wideFind Base.find Base.lookup
  rcases wideLookup_walk hw I k with ⟨i, a, e⟩ | ⟨a, i, l, ls, e⟩ <;>
    rcases skip_walk I (bytesOf_byte w k) with ⟨j, b, e'⟩ | ⟨b, j, l', ls', e'⟩ <;> rw [a] at b <;>
    simp at b <;> rw [e, e'] <;> simp [b]

theorem wideContains_eq {w : Nat} (hw : 0 < w) (I : Inv h F) (k : List Nat) :
    wideContains w h k = Base.contains h (bytesOf w k) := by
  unfold wideContains Base.contains Base.lookup
  rcases wideLookup_walk hw I k with ⟨i, a, e⟩ | ⟨a, i, l, ls, e⟩ <;>
    rcases skip_walk I (bytesOf_byte w k) with ⟨j, b, e'⟩ | ⟨b, j, l', ls', e'⟩ <;> rw [a] at b <;>
    simp at b <;> rw [e, e'] <;> simp [b]

/-- On the byte nodes of a stable trie, `is_tail` and `has_null` agree. -/
theorem SRep.isTail {m : KMap} (R : SRep h F m) {s i} (hb : ∀ b ∈ s, b < 256) (hw : walk h 1 s = some i) :
    Verif.Model.Trie.isTail h i = Verif.Model.Trie.hasNull h i := by
  have hu := R.I.root_used hw
  have hlt := hu.lt R.I.fl
  rw [hasNull_spec R.I hu]
  unfold Verif.Model.Trie.isTail
  rw [if_pos hlt]
  dsimp only
  congr 1
  rw [Bool.eq_iff_iff, decide_eq_true_iff]
  have hin : i ≠ 1 → 1 ≤ h.base i := by
    intro h1
    have hs : s ≠ [] := by rintro rfl; simp [walk] at hw; exact h1 hw.symm
    have : tr h s ≠ none := by rw [tr_of_walk hw]; simp
    have := (R.C.inner s).mpr ((R.C.node hb hs).mp this)
    rw [tr_of_walk hw] at this
    simp only [Option.some.injEq] at this
    unfold kind at this
    split at this
    · assumption
    · simp at this
  unfold child
  have hnv : nullValue = 256 := rfl
  rw [hnv]
  constructor
  · rintro (⟨a, b⟩ | ⟨a, b, c⟩)
    · have := hin b; omega
    · rw [if_pos ⟨a, Nat.le_refl _, b, c⟩]; rfl
  · intro q
    split at q
    · rename_i c; exact Or.inr ⟨c.1, c.2.2.1, c.2.2.2⟩
    · simp at q

theorem SRep.wideFind_eq {m : KMap} {w : Nat} (hw : 0 < w) (R : SRep h F m) (k : List Nat) :
    wideFind w h k = Stable.find h (bytesOf w k) := by
  unfold wideFind Stable.find
  rcases wideLookup_walk hw R.I k with ⟨i, a, e⟩ | ⟨a, i, l, ls, e⟩ <;>
    rcases skip_walk R.I (bytesOf_byte w k) with ⟨j, b, e'⟩ | ⟨b, j, l', ls', e'⟩
  · have hij : i = j := by rw [a] at b; simpa using b
    subst hij
    rw [e, e']
    simp [R.isTail (bytesOf_byte w k) a]
  · rw [a] at b; simp at b
  · rw [a] at b; simp at b
  · rw [e, e']; simp

theorem SRep.wideContains_eq {m : KMap} {w : Nat} (hw : 0 < w) (R : SRep h F m) (k : List Nat) :
    wideContains w h k = Stable.contains h (bytesOf w k) := by
  unfold wideContains Stable.contains
  rcases wideLookup_walk hw R.I k with ⟨i, a, e⟩ | ⟨a, i, l, ls, e⟩ <;>
    rcases skip_walk R.I (bytesOf_byte w k) with ⟨j, b, e'⟩ | ⟨b, j, l', ls', e'⟩
  · have hij : i = j := by rw [a] at b; simpa using b
    subst hij
    rw [e, e']
    simp [R.isTail (bytesOf_byte w k) a]
  · rw [a] at b; simp at b
  · rw [a] at b; simp at b
  · rw [e, e']; simp

end

end Verif.Proof.Trie
