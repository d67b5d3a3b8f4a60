import Verif.Model.Atom
import Verif.Spec.Atom
import Verif.Proof.TrieIter
import Verif.Props.TrieWide
/-
Helper lemmas for sets of atoms.
-/
namespace Verif.Proof.Atom
open Verif.Spec Verif.Spec.KeyMap Verif.Model.Trie Verif.Proof.Trie Verif.Props.Trie Verif.Props.TrieWide
open Verif.Model.Atom

/-- The container represents the strings `S`. -/
structure Holds (w : Nat) (h : Heap) (F : Nat → Prop) (m : KMap) (S : List (List Nat)) : Prop where
  R : SRep h F (enc w m)
  wd : WdMap w m
  keys : m.map Prod.fst = S

section
variable {w : Nat} {h : Heap} {F : Nat → Prop} {m : KMap} {S : List (List Nat)}

theorem Holds.mem (H : Holds w h F m S) (hw : 0 < w) {s : List Nat} (hs : Wd w s) : s ∈ S ↔ ∃ v, (bytesOf w s, v) ∈ enc w m := by
  rw [← H.keys, ← mem_keys, ← enc_get hw H.wd hs]
  constructor
  · intro q
    obtain ⟨v, hv⟩ := Option.isSome_iff_exists.mp q
    exact ⟨v, (get_some H.R.W).mp hv⟩
  · rintro ⟨v, hv⟩
    rw [(get_some H.R.W).mpr hv]; rfl

theorem Holds.wide (H : Holds w h F m S) {s : List Nat} (hs : s ∈ S) : Wd w s := by
  rw [← H.keys] at hs
  obtain ⟨e, he, rfl⟩ := List.mem_map.mp hs
  exact H.wd e he

theorem Holds.ne (H : Holds w h F m S) {s : List Nat} (hs : s ∈ S) : s ≠ [] := by
  rintro rfl
  rw [← H.keys] at hs
  obtain ⟨⟨k, v⟩, he, e⟩ := List.mem_map.mp hs
  obtain rfl : k = [] := e
  exact H.R.W.ne (bytesOf w []) v (List.mem_map.mpr ⟨_, he, rfl⟩) rfl

theorem Holds.nodup (H : Holds w h F m S) : S.Nodup := by
  have h1 := H.R.W.nd
  rw [← H.keys]
  unfold enc at h1
  rw [List.map_map] at h1
  have : (Prod.fst ∘ fun e : List Nat × Nat => (bytesOf w e.1, e.2)) = bytesOf w ∘ Prod.fst := rfl
  rw [this, ← List.map_map] at h1
  exact List.Nodup.of_map _ h1

theorem Holds.size (H : Holds w h F m S) : h.base 0 = S.length := by
  rw [H.R.size, ← H.keys]; simp [enc]

theorem Holds.find (H : Holds w h F m S) (hw : 0 < w) {s : List Nat} (hs : Wd w s) :
    (∃ a, s ∈ S ∧ walk h 1 (bytesOf w s) = some a ∧ 2 ≤ a ∧ wideFind w h s = some a) ∨ (s ∉ S ∧ wideFind w h s = some 0) := by
  rw [H.R.wideFind_eq hw, H.mem hw hs]
  rcases H.R.find (bytesOf_byte w s) with ⟨v, i, h1, h2, h3, h4⟩ | ⟨h1, h2⟩
  · exact .inl ⟨i, ⟨v, h1⟩, h2, h3, h4⟩
  · exact .inr ⟨fun ⟨v, hv⟩ => h1 v hv, h2⟩

theorem Holds.valid (H : Holds w h F m S) (hw : 0 < w) {s : List Nat} (hs : Wd w s) {a : Nat} (hi : walk h 1 (bytesOf w s) = some a)
    (h2 : 2 ≤ a) : Model.Atom.valid h a = some (decide (s ∈ S)) := by
  unfold Model.Atom.valid
  rw [H.R.stableBool (bytesOf_byte w s) hi h2, H.R.isTail (bytesOf_byte w s) hi]
  obtain ⟨t, et, ht⟩ := H.R.hasNull hi
  rw [et]
  congr 1
  rw [Bool.eq_iff_iff, ht, decide_eq_true_iff, H.mem hw hs]

theorem valid_zero : Model.Atom.valid h 0 = some false := rfl

/-- The number of the atom of a stored string is the index of the node behind its empty transition. -/
theorem Holds.number (H : Holds w h F m S) (hw : 0 < w) {s : List Nat} (hs : s ∈ S) {a : Nat} (hi : walk h 1 (bytesOf w s) = some a) :
    ∃ j, Model.Atom.number h a = some j ∧ walk h 1 (bytesOf w s ++ [256]) = some j ∧ 2 ≤ j ∧ ofNumber h j = some a ∧ Stable.valueIndex h a = some j := by
  obtain ⟨v, hv⟩ := (H.mem hw (H.wide hs)).mp hs
  have hlt := (H.R.I.root_used hi).lt H.R.I.fl
  obtain ⟨j, h1, h2, -⟩ := H.R.valueNode hv hi
  have hc : child h a 256 = some j := by rw [walk_snoc, hi] at h2; exact h2
  obtain ⟨b, eb, b1, _, bl, bc, rfl⟩ := child_eq_some.mp hc
  have hnv : (nullValue : Int) = 256 := rfl
  have hne : a ≠ 1 := by
    rintro rfl
    have := H.R.I.walk_inj hi (rfl : walk h 1 [] = some 1)
    rw [bytesOf_eq_nil hw] at this
    exact H.ne hs this
  have ha2 : 2 ≤ a := by omega
  refine ⟨b + 256, ?_, h2, by omega, ?_, h1⟩
  · unfold Model.Atom.number
    rw [if_pos (by omega), rdB, if_pos hlt.2]
    simp only [Option.bind_some, eb]
    rw [if_pos (by omega)]
    have : ((b : Int) + (nullValue : Int)).toNat = b + 256 := by omega
    rw [this, rdC, if_pos bl]
    simp only [Option.bind_some, bc, if_true]
  · unfold ofNumber
    rw [rdC, if_pos bl]
    simp only [Option.bind_some, bc]
    rw [if_pos (by omega), Int.toNat_natCast, rdB, if_pos hlt.2]
    simp only [Option.bind_some, eb]
    rw [if_pos (by omega)]

/-- Numbers that are taken for atoms are those of stored strings. -/
theorem Holds.of_number (H : Holds w h F m S) (hw : 0 < w) {i a : Nat} (he : ofNumber h i = some a) :
    ∃ s ∈ S, walk h 1 (bytesOf w s) = some a ∧ Model.Atom.number h a = some i := by
  unfold ofNumber at he
  unfold rdC at he
  split at he
  case isFalse => cases he
  rename_i hlen
  simp only [Option.bind_some] at he
  split at he
  case isFalse => cases he
  rename_i hc
  unfold rdB at he
  rw [if_pos (by omega)] at he
  simp only [Option.bind_some] at he
  split at he
  case isFalse => cases he
  rename_i hb
  obtain rfl : (h.check i).toNat = a := by injection he
  have hnv : (nullValue : Int) = 256 := rfl
  have hnF : ¬ F i := fun hf => by have := H.R.I.fl.le0 (.inr hf); omega
  have hi2 : 2 ≤ i := by
    by_contra hlt
    have h01 : i = 0 ∨ i = 1 := by omega
    rcases h01 with rfl | rfl
    · have := H.R.I.fl.le0 (.inl rfl); omega
    · have := H.R.I.root; omega
  obtain ⟨p, b, up, e1, e2, b1, b2, b3⟩ := H.R.I.par i hi2 hlen hnF
  have ep : (h.check i).toNat = p := by omega
  rw [ep] at hb ⊢
  obtain ⟨q, hq⟩ := H.R.I.reach p up
  have hib : i = b + 256 := by omega
  have hch : child h p 256 = some i := child_eq_some.mpr ⟨b, e2, b1, by omega, by omega, by rw [← hib]; exact e1, hib⟩
  have hT : tr h (q ++ [256]) ≠ none := (child_isSome_tr hq).mp (by rw [hch]; rfl)
  obtain ⟨v, hv⟩ := (H.R.C.null H.R.W).mp hT
  obtain ⟨⟨k, u⟩, hk, e⟩ := List.mem_map.mp hv
  simp only [Prod.mk.injEq] at e
  have hkS : k ∈ S := by rw [← H.keys]; exact List.mem_map.mpr ⟨_, hk, rfl⟩
  have hwk : walk h 1 (bytesOf w k) = some p := by rw [e.1]; exact hq
  obtain ⟨j, j1, j2, -⟩ := H.number hw hkS hwk
  refine ⟨k, hkS, hwk, ?_⟩
  rw [walk_snoc, hwk] at j2
  have : some i = some j := by rw [← hch]; exact j2
  rw [j1, this]

theorem holds_empty : Holds w Heap.empty (fun _ => False) [] [] := ⟨srep_empty, by intro e he; simp at he, rfl⟩

/-- Inserting a string; the last part: nodes that do not move. -/
theorem Holds.insert (H : Holds w h F m S) (hw : 0 < w) {s : List Nat} (hs : Wd w s) :
    ∃ h' F' m' a, Model.Atom.insert w h s = some (h', a) ∧ Holds w h' F' m' (if s = [] ∨ s ∈ S then S else s :: S) ∧
      (s = [] → a = 0) ∧ (s ≠ [] → walk h' 1 (bytesOf w s) = some a) ∧
      ∀ t j, walk h 1 t = some j → (∀ p l, p <+: bytesOf w s → t ≠ p ++ [l]) → walk h' 1 t = some j := by
  unfold Model.Atom.insert WideStable.insertKey
  by_cases hn : s = []
  · subst hn
    have : Stable.insertKey h (bytesOf w []) 0 = some (h, 0) := by
      unfold Stable.insertKey
      rw [if_pos (by decide), if_pos (show bytesOf w [] = [] from rfl)]
    rw [this]
    simp only [Option.bind_some, valid_zero]
    refine ⟨h, F, m, 0, rfl, ?_, fun _ => rfl, fun k => absurd rfl k, fun t j ht _ => ht⟩
    rw [if_pos (.inl trivial)]
    exact H
  · have hnb : bytesOf w s ≠ [] := fun e => hn ((bytesOf_eq_nil hw).mp e)
    obtain ⟨h1, F1, a, e1, R1, w1, mv⟩ := H.R.insert (v := 0) hnb (bytesOf_byte w s) (by omega)
    have hstep : (if (KeyMap.get (enc w m) (bytesOf w s)).isSome = true then enc w m else (bytesOf w s, 0) :: enc w m) =
        enc w (step m (.insert s 0)) := by
      rw [← enc_step hw H.wd (op := .insert s 0) ⟨hs, by omega⟩]
      simp only [encOp, step]
      by_cases q : (KeyMap.get (enc w m) (bytesOf w s)).isSome = true
      · rw [if_pos q, if_pos (.inr q)]
      · rw [if_neg q, if_neg (fun k => k.elim hnb q)]
    rw [hstep] at R1
    have hkeys : (step m (.insert s 0)).map Prod.fst = if s = [] ∨ s ∈ S then S else s :: S := by
      simp only [step]
      have hiff : (KeyMap.get m s).isSome = true ↔ s ∈ S := by rw [mem_keys, H.keys]
      by_cases q : s ∈ S
      · rw [if_pos (.inr (hiff.mpr q)), if_pos (.inr q), H.keys]
      · rw [if_neg (fun k => k.elim hn fun k => q (hiff.mp k)), if_neg (fun k => k.elim hn q), List.map_cons, H.keys]
    have H1 : Holds w h1 F1 (step m (.insert s 0)) (if s = [] ∨ s ∈ S then S else s :: S) :=
      ⟨R1, H.wd.step (op := .insert s 0) ⟨hs, by omega⟩, hkeys⟩
    have hin : s ∈ (if s = [] ∨ s ∈ S then S else s :: S) := by
      split
      · rename_i q; exact q.resolve_left hn
      · exact List.mem_cons_self ..
    have ha := (R1.I.root_used w1).lt R1.I.fl
    obtain ⟨j, j1, j2, j3, j4, j5⟩ := H1.number hw hin w1
    have ha2 : 2 ≤ a := by
      by_contra hlt
      have : a = 1 := by
        rcases R1.I.root_used w1 with q | q
        · exact q
        · omega
      subst this
      exact hnb (R1.I.walk_inj w1 rfl)
    rw [e1]
    simp only [Option.bind_some]
    rw [H1.valid hw hs w1 ha2]
    simp only [Option.bind_some, hin, decide_true, if_true, j5]
    obtain ⟨v, hv⟩ := (H1.mem hw hs).mp hin
    obtain ⟨h2, e2, R2, w2⟩ := R1.write (v := j) hv w1 j5
    rw [e2]
    have hset : setMap (enc w (step m (.insert s 0))) (bytesOf w s) j = enc w (setMap (step m (.insert s 0)) s j) := by
      unfold setMap enc
      rw [List.map_map, List.map_map]
      apply List.map_congr_left
      intro e he
      simp only [Function.comp]
      by_cases q : e.1 = s
      · subst q; simp
      · rw [if_neg q, if_neg (by rw [bytesOf_inj hw (H1.wd e he) hs]; exact q)]
    rw [hset] at R2
    refine ⟨h2, F1, _, a, rfl, ⟨R2, ?_, ?_⟩, fun k => absurd k hn, fun _ => by rw [w2]; exact w1, fun t i ht hp => by
      rw [w2]; exact mv t i ht hp⟩
    · intro e he
      unfold setMap at he
      obtain ⟨x, hx, rfl⟩ := List.mem_map.mp he
      by_cases q : x.1 = s
      · rw [if_pos q]; exact hs
      · rw [if_neg q]; exact H1.wd x hx
    · rw [← hkeys]
      unfold setMap
      rw [List.map_map]
      apply List.map_congr_left
      intro x _
      by_cases q : x.1 = s
      · simp [Function.comp, q]
      · simp [Function.comp, q]

/-- Inserting a stored string moves nothing. -/
theorem Holds.insert_again (H : Holds w h F m S) (hw : 0 < w) {s : List Nat} (hs : s ∈ S) :
    ∃ h' a, Model.Atom.insert w h s = some (h', a) ∧ ∀ t, walk h' 1 t = walk h 1 t := by
  obtain ⟨u, hu⟩ := (H.mem hw (H.wide hs)).mp hs
  have hnb : bytesOf w s ≠ [] := fun e => H.ne hs ((bytesOf_eq_nil hw).mp e)
  obtain ⟨i, p, r, e1, hkp, hi, hnone⟩ := H.R.lookup (bytesOf_byte w s)
  have hr : r = [] := by
    cases r with
    | nil => rfl
    | cons l ls => rw [hkp] at hu; exact absurd hu (H.R.not_mem_of_rest (hnone l ls rfl) u)
  subst hr
  simp only [List.append_nil] at hkp
  obtain ⟨hn, en, hn'⟩ := H.R.hasNull hi
  have hk : Stable.insertKey h (bytesOf w s) 0 = some (h, i) := by
    unfold Stable.insertKey
    rw [if_pos (by decide), if_neg hnb, e1]
    simp only [Option.bind_some]
    rw [en]
    simp only [Option.bind_some]
    rw [if_neg (by rw [hkp] at hu; simp [hn'.mpr ⟨u, hu⟩])]
  rw [← hkp] at hi
  obtain ⟨j, j1, j2, j3, j4, j5⟩ := H.number hw hs hi
  obtain ⟨h2, e2, R2, w2⟩ := H.R.write (v := j) hu hi j5
  unfold Model.Atom.insert WideStable.insertKey
  rw [hk]
  simp only [Option.bind_some]
  by_cases hv : Model.Atom.valid h i = some true
  · rw [hv]
    simp only [Option.bind_some, if_true, j5, e2, Option.map_some]
    exact ⟨h2, i, rfl, w2⟩
  · rcases H.find hw (H.wide hs) with ⟨a, h1, h2', h3, h4⟩ | ⟨h1, h2'⟩
    · have : a = i := by rw [hi] at h2'; exact (Option.some.inj h2').symm
      subst this
      exact absurd (by rw [H.valid hw (H.wide hs) hi h3]; simp [hs]) hv
    · exact absurd hs h1

/-- `operator[]`. -/
theorem Holds.index (H : Holds w h F m S) (hw : 0 < w) {s : List Nat} (hs : Wd w s) :
    ∃ h' F' m' a, Model.Atom.index w h s = some (h', a) ∧ Holds w h' F' m' (if s = [] ∨ s ∈ S then S else s :: S) ∧
      (s = [] → a = 0) ∧ (s ≠ [] → walk h' 1 (bytesOf w s) = some a) ∧
      ∀ t j, walk h 1 t = some j → (∀ p l, p <+: bytesOf w s → t ≠ p ++ [l]) → walk h' 1 t = some j := by
  unfold Model.Atom.index
  rcases H.find hw hs with ⟨a, h1, h2, h3, h4⟩ | ⟨h1, h2⟩
  · rw [h4]
    simp only [Option.bind_some]
    rw [H.valid hw hs h2 h3]
    simp only [Option.bind_some, h1, decide_true, if_true]
    refine ⟨h, F, m, a, rfl, ?_, fun k => absurd k (H.ne h1), fun _ => h2, fun t j ht _ => ht⟩
    rw [if_pos (.inr trivial)]
    exact H
  · rw [h2]
    simp only [Option.bind_some, valid_zero]
    exact H.insert hw hs

/-- Erasing a string; the last part: nodes that do not move. -/
theorem Holds.erase (H : Holds w h F m S) (hw : 0 < w) {s : List Nat} (hs : Wd w s) :
    ∃ h' F' m', Model.Atom.erase w h s = some h' ∧ Holds w h' F' m' (S.filter fun t => t ≠ s) ∧
      (∀ t j, S.filter (fun t => t ≠ s) ≠ [] → walk h 1 t = some j → ¬ (t <+: bytesOf w s) → t ≠ bytesOf w s ++ [256] → walk h' 1 t = some j) := by
  obtain ⟨h1, F1, e1, R1, mv⟩ := H.R.erase (bytesOf_byte w s)
  rw [enc_filter hw H.wd hs] at R1 mv
  have hkeys : (m.filter fun e => e.1 ≠ s).map Prod.fst = S.filter fun t => t ≠ s := by
    rw [← H.keys, List.filter_map]; rfl
  refine ⟨h1, F1, _, ?_, ⟨R1, fun e he => H.wd e (List.mem_filter.mp he).1, hkeys⟩, fun t j hne => mv t j ?_⟩
  · unfold Model.Atom.erase
    rw [H.R.wideFind_eq hw]
    exact e1
  · intro k
    apply hne
    have : (m.filter fun e => e.1 ≠ s) = [] := by
      unfold enc at k
      exact List.map_eq_nil_iff.mp k
    rw [← hkeys, this]; rfl

/-- Erasing by number. -/
theorem Holds.eraseId_eq (H : Holds w h F m S) (hw : 0 < w) {s : List Nat} (hs : Wd w s) :
    ∃ a i, ofString w h s = some a ∧ Model.Atom.number h a = some i ∧ eraseId h i = Model.Atom.erase w h s := by
  unfold ofString Model.Atom.erase
  rcases H.find hw hs with ⟨a, h1, h2, h3, h4⟩ | ⟨h1, h2⟩
  · obtain ⟨j, j1, j2, j3, j4, j5⟩ := H.number hw h1 h2
    refine ⟨a, j, h4, j1, ?_⟩
    unfold eraseId
    rw [if_pos (by omega), j4, h4]
  · refine ⟨0, 0, h2, rfl, ?_⟩
    rw [h2]
    unfold eraseId Stable.eraseAt
    have : 0 < h.len := by have := H.R.I.fl.pos; omega
    simp [this]

end

end Verif.Proof.Atom
