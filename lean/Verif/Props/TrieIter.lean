import Verif.Proof.TrieIter
import Verif.Props.TrieWide
/-
Properties C03 (iterators), C63 and C64: moving through a trie with iterators.
-/
namespace Verif.Props.TrieIter
open Verif.Spec Verif.Spec.KeyMap Verif.Model.Trie Verif.Proof.Trie Verif.Props.Trie Verif.Props.TrieWide

theorem wide_path {w : Nat} (hw : 0 < w) {h F} {m m' : KMap} (R : Rep h F (enc w m)) (hm : WdMap w m)
    (hkeys : m.map Prod.fst = m'.map Prod.fst) {p} (hp : Wd w p) :
    (walk h 1 (bytesOf w p)).isSome = true ↔ IsPath m' p := by
  have h1 : (walk h 1 (bytesOf w p)).isSome = true ↔ tr h (bytesOf w p) ≠ none := by
    unfold tr; cases walk h 1 (bytesOf w p) <;> simp
  rw [h1, path_iff R (bytesOf_byte w p)]
  unfold IsPath
  rw [bytesOf_eq_nil hw, ← hkeys]
  constructor
  · rintro (a | ⟨k, a, b⟩)
    · exact Or.inl a
    · obtain ⟨x, hx, rfl⟩ := List.mem_map.mp a
      obtain ⟨y, hy, rfl⟩ := List.mem_map.mp hx
      exact Or.inr ⟨y.1, List.mem_map.mpr ⟨y, hy, rfl⟩, (bytesOf_prefix hw hp (hm y hy)).mp b⟩
  · rintro (a | ⟨k, a, b⟩)
    · exact Or.inl a
    · obtain ⟨y, hy, rfl⟩ := List.mem_map.mp a
      exact Or.inr ⟨bytesOf w y.1, List.mem_map.mpr ⟨_, List.mem_map.mpr ⟨y, hy, rfl⟩, rfl⟩,
        (bytesOf_prefix hw hp (hm y hy)).mpr b⟩

theorem wideStable_path {w : Nat} (hw : 0 < w) {h F} {m : KMap} (R : SRep h F (enc w m)) (hm : WdMap w m)
    {p} (hp : Wd w p) : (walk h 1 (bytesOf w p)).isSome = true ↔ IsPath m p := by
  have h1 : (walk h 1 (bytesOf w p)).isSome = true ↔ tr h (bytesOf w p) ≠ none := by
    unfold tr; cases walk h 1 (bytesOf w p) <;> simp
  rw [h1]
  unfold IsPath
  by_cases hp0 : p = []
  · subst hp0
    refine ⟨fun _ => Or.inl rfl, fun _ => ?_⟩
    show tr h [] ≠ none
    simp [tr, walk]
  · rw [R.C.node (bytesOf_byte w p) (by rw [ne_eq, bytesOf_eq_nil hw]; exact hp0)]
    constructor
    · rintro ⟨k, v, a, b⟩
      obtain ⟨y, hy, e⟩ := List.mem_map.mp a
      have e1 := congrArg Prod.fst e
      dsimp only at e1
      subst e1
      exact Or.inr ⟨y.1, List.mem_map.mpr ⟨y, hy, rfl⟩, (bytesOf_prefix hw hp (hm y hy)).mp b⟩
    · rintro (a | ⟨k, a, b⟩)
      · exact absurd a hp0
      · obtain ⟨y, hy, rfl⟩ := List.mem_map.mp a
        exact ⟨bytesOf w y.1, y.2, List.mem_map.mpr ⟨y, hy, rfl⟩, (bytesOf_prefix hw hp (hm y hy)).mpr b⟩

theorem search_of_walk {w : Nat} (hw : 0 < w) {h F} (I : Inv h F) {p i}
    (hi : walk h 1 (bytesOf w p) = some i) : wideSearch w h p = some i := by
  unfold wideSearch
  rcases wideLookup_walk hw I p with ⟨j, a, e'⟩ | ⟨a, _⟩
  · rw [hi] at a
    rw [e']; simpa using a.symm
  · rw [hi] at a; simp at a

/-- What iterators see at the node `i` of the label string `p` in a trie with the keys of `m`. -/
structure View (w : Nat) (h : Heap) (m : KMap) (stored : Nat → Option Bool) (p : List Nat) (i : Nat)
    (L ls : List Nat) : Prop where
  node : wideSearch w h p = some i
  /-- `for (auto c = it.begin(); c != it.end(); ++c)` ends and visits `L`. -/
  loop : children w h i = some L
  /-- `*c` of the visited children. -/
  labels : L.mapM (wideValue w h) = some ls
  sorted : ls.Pairwise (· < ·)
  exact : ∀ l, l ∈ ls ↔ l < 256 ^ w ∧ IsPath m (p ++ [l])
  child : ∀ n l c : Nat, ls[n]? = some l → L[n]? = some c → wideSearch w h (p ++ [l]) = some c
  parent : ∀ c ∈ L, wideParent w h c = some i
  string : itString w h i = some p
  stored : stored i = some (decide (p ∈ m.map Prod.fst))

/-- C63. After every history and for every path `p` of the trie, the iterator at `p` visits exactly the labels that
continue `p`, in increasing order and once each; `parent()` undoes a step down; `string()` spells `p`; conversion to
`bool` tells whether `p` is a stored key. -/
theorem C63_iterate (w : Nat) (hw : 0 < w) (ops : List Op) (ok : ∀ op ∈ ops, WideOk w op) :
    ∃ h, wideRun w ops = some h ∧ ∀ p, Wd w p → IsPath (run ops) p →
      ∃ i L ls, View w h (run ops) (itBool h) p i L ls := by
  obtain ⟨h, F, e, R, hm⟩ := wide_run hw ops (m := []) rep_empty (by intro e he; simp at he) ok
  have hkeys := keys_run ops (rfl : ([] : KMap).map Prod.fst = ([] : KMap).map Prod.fst)
  refine ⟨h, e, fun p hp hpath => ?_⟩
  obtain ⟨i, hi⟩ := Option.isSome_iff_exists.mp ((wide_path hw R hm hkeys hp).mpr hpath)
  obtain ⟨L, ls, a, b, c, _, d, f, g⟩ := wide_children R.I hw hi (R.deep hw hi)
  refine ⟨i, L, ls, search_of_walk hw R.I hi, a, b, c, ?_, ?_, g, itString_spec R.I hw hp hi, ?_⟩
  · intro l
    rw [d]
    refine and_congr_right fun hl => ?_
    exact wide_path hw R hm hkeys (by
      intro x hx
      rcases List.mem_append.mp hx with q | q
      · exact hp x q
      · rw [List.mem_singleton.mp q]; exact hl)
  · intro n l c' h1 h2
    exact search_of_walk hw R.I (f n l c' h1 h2)
  · have hlt := (R.I.root_used hi).lt R.I.fl
    by_cases h1 : i = 1
    · subst h1
      have : bytesOf w p = [] := R.I.walk_inj hi rfl
      rw [bytesOf_eq_nil hw] at this
      subst this
      have : ([] : List Nat) ∉ (run ops).map Prod.fst := by
        have : ∀ v, (([] : List Nat), v) ∉ enc w (ops.foldl stepLossy []) := fun v q => R.W.ne _ v q rfl
        unfold run
        rw [← hkeys]
        intro q
        obtain ⟨y, hy, hy2⟩ := List.mem_map.mp q
        exact this y.2 (List.mem_map.mpr ⟨y, hy, by rw [hy2]; rfl⟩)
      simp [itBool, this]
    · rw [itBool_eq (by omega) hlt.2]
      obtain ⟨t, et, ht⟩ := R.isTail hi (bytesOf_byte w p)
      rw [et]
      congr 1
      rw [Bool.eq_iff_iff, ht, decide_eq_true_iff]
      unfold run
      rw [← hkeys, ← mem_keys, ← enc_get hw hm hp]
      constructor
      · rintro ⟨v, hv⟩; rw [(get_some R.W).mpr hv]; rfl
      · intro q
        obtain ⟨v, hv⟩ := Option.isSome_iff_exists.mp q
        exact ⟨v, (get_some R.W).mp hv⟩

/-- C63 for the stable trie. -/
theorem C63_stable (w : Nat) (hw : 0 < w) (ops : List Op) (ok : ∀ op ∈ ops, WideOk w op) :
    ∃ h, wideStableRun w ops = some h ∧ ∀ p, Wd w p → IsPath (run ops) p →
      ∃ i L ls, View w h (run ops) (itStableBool h) p i L ls := by
  obtain ⟨h, F, e, R, hm⟩ := wideStable_run hw ops (m := []) srep_empty (by intro e he; simp at he) ok
  refine ⟨h, e, fun p hp hpath => ?_⟩
  obtain ⟨i, hi⟩ := Option.isSome_iff_exists.mp ((wideStable_path hw R hm hp).mpr hpath)
  obtain ⟨L, ls, a, b, c, _, d, f, g⟩ := wide_children R.I hw hi (R.deep hw hi)
  refine ⟨i, L, ls, search_of_walk hw R.I hi, a, b, c, ?_, ?_, g, itString_spec R.I hw hp hi, ?_⟩
  · intro l
    rw [d]
    refine and_congr_right fun hl => ?_
    exact wideStable_path hw R hm (by
      intro x hx
      rcases List.mem_append.mp hx with q | q
      · exact hp x q
      · rw [List.mem_singleton.mp q]; exact hl)
  · intro n l c' h1 h2
    exact search_of_walk hw R.I (f n l c' h1 h2)
  · have hlt := (R.I.root_used hi).lt R.I.fl
    by_cases h1 : i = 1
    · subst h1
      have : bytesOf w p = [] := R.I.walk_inj hi rfl
      rw [bytesOf_eq_nil hw] at this
      subst this
      have : ([] : List Nat) ∉ (run ops).map Prod.fst := by
        have : ∀ v, (([] : List Nat), v) ∉ enc w (run ops) := fun v q => R.W.ne _ v q rfl
        intro q
        obtain ⟨y, hy, hy2⟩ := List.mem_map.mp q
        exact this y.2 (List.mem_map.mpr ⟨y, hy, by rw [hy2]; rfl⟩)
      simp [itStableBool, this]
    · rw [R.stableBool (bytesOf_byte w p) hi (by omega)]
      rw [R.isTail (bytesOf_byte w p) hi]
      obtain ⟨t, et, ht⟩ := R.hasNull hi
      rw [et]
      congr 1
      unfold run
      rw [Bool.eq_iff_iff, ht, decide_eq_true_iff, ← mem_keys, ← enc_get hw hm hp]
      constructor
      · rintro ⟨v, hv⟩
        rw [(get_some R.W).mpr hv]; rfl
      · intro q
        obtain ⟨v, hv⟩ := Option.isSome_iff_exists.mp q
        exact ⟨v, (get_some R.W).mp hv⟩

example : (∀ op ∈ wdemo, WideOk 2 op) ∧ Wd 2 [0x3042] ∧ IsPath (run wdemo) [0x3042] ∧
    IsPath (run wdemo) [0x3042, 0x3046] :=
  ⟨by decide, by decide, Or.inr ⟨[0x3042], by decide, by decide⟩, Or.inr ⟨[0x3042, 0x3046], by decide, by decide⟩⟩

/-- C03 for iterators over byte-string tries: at every path the iterator loop and every `it[label]` stay inside the
node array and end. -/
theorem C03_iterators (ops : List Op) (ok : ∀ op ∈ ops, WideOk 1 op) :
    ∃ h, wideRun 1 ops = some h ∧ ∀ p, Wd 1 p → IsPath (run ops) p →
      ∃ i, wideSearch 1 h p = some i ∧ (children 1 h i).isSome ∧ (itBool h i).isSome ∧ (itString 1 h i).isSome ∧
        ∀ l, l < 256 → (wideAt 1 h i l).isSome := by
  obtain ⟨h, F, e, R, hm⟩ := wide_run Nat.one_pos ops (m := []) rep_empty (by intro e he; simp at he) ok
  have hkeys := keys_run ops (rfl : ([] : KMap).map Prod.fst = ([] : KMap).map Prod.fst)
  obtain ⟨h', e', V⟩ := C63_iterate 1 Nat.one_pos ops ok
  obtain rfl : h = h' := by rw [wideRun, e] at e'; simpa using e'
  refine ⟨h, e, fun p hp hpath => ?_⟩
  obtain ⟨i, L, ls, v⟩ := V p hp hpath
  obtain ⟨i', hi⟩ := Option.isSome_iff_exists.mp ((wide_path Nat.one_pos R hm hkeys hp).mpr hpath)
  obtain rfl : i' = i := by
    have := search_of_walk Nat.one_pos R.I hi
    rw [v.node] at this; simpa using this.symm
  refine ⟨i', v.node, by rw [v.loop]; rfl, by rw [v.stored]; rfl, by rw [v.string]; rfl, fun l hl => ?_⟩
  rw [wideAt, if_pos rfl, itAt_spec R.I (R.I.root_used hi) (by omega)]; rfl

example : (∀ op ∈ demo, WideOk 1 op) ∧ Wd 1 [97] ∧ IsPath (run demo) [97] :=
  ⟨by decide, by decide, Or.inr ⟨[97], by decide, by decide⟩⟩

/-- C64, full statement: `it[label]` is the iterator at `p ++ [label]` if that is a path and the end otherwise. -/
def C64_statement : Prop := ∀ (w : Nat) (ops : List Op), 0 < w → (∀ op ∈ ops, WideOk w op) →
  ∃ h, wideRun w ops = some h ∧ ∀ p l, Wd w p → l < 256 ^ w → IsPath (run ops) p →
    ∃ i, wideSearch w h p = some i ∧ wideAt w h i l = wideSearch w h (p ++ [l])

/-- C64 is false: in a `trie<char16_t>` with the only key U+3042, `begin()[0xFF42]` reads behind the node array. -/
theorem C64_statement_false : ¬ C64_statement := by
  intro q
  obtain ⟨h, e, q⟩ := q 2 [.insert [0x3042] 1] (by decide) (by decide)
  obtain ⟨i, e1, e2⟩ := q [] 0xFF42 (by decide) (by decide) (Or.inl rfl)
  obtain ⟨h', e', v⟩ := C09_lookup 2 (by decide) [.insert [0x3042] 1] (by decide)
  rw [e] at e'
  obtain rfl : h = h' := by simpa using e'
  have hi : i = 1 := by
    have : wideSearch 2 h [] = some 1 := by simp [wideSearch, wideLookup, bytesOf, skipLoop, climb]
    rw [this] at e1; simpa using e1.symm
  subst hi
  have key : (wideRun 2 [.insert [0x3042] 1]).all (fun h => (wideAt 2 h 1 0xFF42).isNone) = true := by
    decide +kernel
  rw [e] at key
  simp only [Option.all_some, Option.isNone_iff_eq_none] at key
  rw [key] at e2
  obtain ⟨j, p, r, el, _⟩ := v ([] ++ [0xFF42]) (by decide)
  rw [wideSearch, el] at e2
  simp at e2

/-- C64, partial: missing are labels of two or more bytes for which the code reads behind the array; whenever the call
is defined its answer is right, and for one-byte labels it always is defined. -/
theorem C64_partial (w : Nat) (hw : 0 < w) (ops : List Op) (ok : ∀ op ∈ ops, WideOk w op) :
    ∃ h, wideRun w ops = some h ∧ ∀ p l, Wd w p → l < 256 ^ w → IsPath (run ops) p →
      ∃ i, wideSearch w h p = some i ∧
        (∀ j, wideAt w h i l = some j → wideSearch w h (p ++ [l]) = some j) ∧
        (w = 1 → wideAt w h i l = wideSearch w h (p ++ [l])) := by
  obtain ⟨h, F, e, R, hm⟩ := wide_run hw ops (m := []) rep_empty (by intro e he; simp at he) ok
  have hkeys := keys_run ops (rfl : ([] : KMap).map Prod.fst = ([] : KMap).map Prod.fst)
  refine ⟨h, e, fun p l hp hl hpath => ?_⟩
  obtain ⟨i, hi⟩ := Option.isSome_iff_exists.mp ((wide_path hw R hm hkeys hp).mpr hpath)
  have hu := R.I.root_used hi
  have hser : bytesOf w (p ++ [l]) = bytesOf w p ++ Verif.Model.Serialize.serialize w l := by
    rw [bytesOf_append]; simp [bytesOf]
  have hwalk : walk h 1 (bytesOf w (p ++ [l])) = walk h i (Verif.Model.Serialize.serialize w l) := by
    rw [hser, walk_append, hi]; rfl
  have main : ∀ j, wideAt w h i l = some j → wideSearch w h (p ++ [l]) = some j := by
    intro j hj
    have := wideAt_spec R.I hw hu hl hj
    rw [← hwalk] at this
    unfold wideSearch
    rcases wideLookup_walk hw R.I (p ++ [l]) with ⟨k, a, e'⟩ | ⟨a, k, x, xs, e'⟩
    · rw [e', this, a]; simp
    · rw [e', this, a]; simp
  refine ⟨i, search_of_walk hw R.I hi, main, ?_⟩
  rintro rfl
  have h256 : l ≤ 256 := by have : l < 256 := by simpa using hl
                            omega
  have := itAt_spec R.I hu h256
  have e2 : wideAt 1 h i l = some ((child h i l).getD 0) := by rw [wideAt, if_pos rfl]; exact this
  rw [e2, main _ e2]

example : (∀ op ∈ wdemo, WideOk 2 op) ∧ Wd 2 [0x3042] ∧ (0x3046 : Nat) < 256 ^ 2 ∧ IsPath (run wdemo) [0x3042] :=
  ⟨by decide, by decide, by decide, Or.inr ⟨[0x3042], by decide, by decide⟩⟩

end Verif.Props.TrieIter
