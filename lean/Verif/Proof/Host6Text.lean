import Verif.Proof.Host6
namespace Verif.Proof.Host6Text
open Verif.Model.Infra Verif.Model.Unicode Verif.Model.Coder Verif.Model.Percent Verif.Model.Host
open Verif.Spec Verif.Spec.Infra Verif.Spec.Percent Verif.Spec.Host Verif.Proof.Digits Verif.Proof.Host4 Verif.Proof.Host6

theorem hex_eq (n : Nat) : toChars 16 n = hex n := toChars_eq 16 n (by omega) (by omega)

theorem digit_hex (d : Nat) (h : d < 16) : isAsciiHexDigit (if d < 10 then 0x30 + d else 0x61 + (d - 10)) = true := by
  have : ∀ d < 16, isAsciiHexDigit (if d < 10 then 0x30 + d else 0x61 + (d - 10)) = true := by decide
  exact this d h

theorem toChars_hex (n : Nat) : ∀ c ∈ toChars 16 n, isAsciiHexDigit c = true := by
  induction n using Nat.strongRecOn with
  | ind n ih =>
    rw [toChars]
    by_cases h : n < 16
    · rw [dif_pos (Or.inl h)]
      intro c hc
      obtain rfl := List.mem_singleton.mp hc
      exact digit_hex n h
    · rw [dif_neg (by omega)]
      intro c hc
      rcases List.mem_append.mp hc with hc | hc
      · exact ih (n / 16) (by omega) c hc
      · obtain rfl := List.mem_singleton.mp hc
        exact digit_hex (n % 16) (by omega)

theorem toChars_len (k n : Nat) (h : n < 16 ^ (k + 1)) : (toChars 16 n).length ≤ k + 1 := by
  induction k generalizing n with
  | zero => rw [toChars, dif_pos (Or.inl (by omega))]; simp
  | succ k ih =>
    rw [toChars]
    by_cases h' : n < 16
    · rw [dif_pos (Or.inl h')]; simp
    · rw [dif_neg (by omega), List.length_append]
      have := ih (n / 16) (by rw [Nat.pow_succ] at h; omega)
      simp; omega

theorem hex_piece (v : Nat) (h : v < 65536) : Piece (hex v) v := by
  rw [← hex_eq, piece_iff]
  refine ⟨?_, toChars_hex v, (fromChars_toChars 16 v (by omega) (by omega)).symm, toChars_len 3 v (by omega)⟩
  rw [toChars]; split <;> simp

theorem hex_pieces (vs : List Nat) (h : ∀ v ∈ vs, v < 65536) : List.Forall₂ Piece (vs.map hex) vs := by
  induction vs with
  | nil => exact .nil
  | cons v vs ih => exact .cons (hex_piece v (h v (by simp))) (ih fun x hx => h x (by simp [hx]))

theorem out_plain (cp : Option Nat) (ps : List Nat) (i : Nat) (hi : i + ps.length = 8) (hc : ∀ c, cp = some c → c < i ∨ 8 ≤ c) :
    serializeIpv6Loop cp i false ps = join 0x3A (ps.map hex) := by
  induction ps generalizing i with
  | nil => rfl
  | cons p ps ih =>
    simp only [List.length_cons] at hi
    rw [serializeIpv6Loop, if_neg (by simp), if_neg (by intro h; rcases hc i h with h | h <;> omega),
      ih (i + 1) (by omega) (fun c h => by rcases hc c h with h | h <;> omega), hex_eq, List.map_cons]
    by_cases hps : ps = []
    · subst hps
      have : i = 7 := by simp at hi; omega
      simp [this, join]
    · have : i ≠ 7 := by
        have := List.length_pos_iff.mpr hps
        omega
      rw [if_pos this, join_cons_ne _ _ (by simpa using hps)]
      simp

theorem out_skip (cp : Option Nat) (k i : Nat) (r : List Nat) (hi : i + k + r.length = 8) (hr : r.head? ≠ some 0)
    (hc : ∀ c, cp = some c → c < i) :
    serializeIpv6Loop cp i true (List.replicate k 0 ++ r) = join 0x3A (r.map hex) := by
  induction k generalizing i with
  | zero =>
    cases r with
    | nil => rfl
    | cons p r =>
      have hp : p ≠ 0 := by simpa using hr
      have h1 := out_plain cp (p :: r) i (by omega) (fun c h => Or.inl (hc c h))
      rw [← h1, List.replicate_zero, List.nil_append]
      simp [serializeIpv6Loop, hp]
  | succ k ih =>
    rw [List.replicate_succ, List.cons_append, serializeIpv6Loop, if_pos ⟨rfl, rfl⟩]
    exact ih (i + 1) (by omega) fun c h => by have := hc c h; omega

theorem out_prefix (l : List Nat) (i c : Nat) (hc : i + l.length = c) (h7 : c ≤ 7) (t : List Nat) :
    serializeIpv6Loop (some c) i false (l ++ t) = terminated (l.map hex) ++ serializeIpv6Loop (some c) c false t := by
  induction l generalizing i with
  | nil => simp at hc; subst hc; simp [terminated]
  | cons p l ih =>
    simp only [List.length_cons] at hc
    rw [List.cons_append, serializeIpv6Loop, if_neg (by simp), if_neg (by simp; omega), if_pos (by omega), hex_eq,
      ih (i + 1) (by omega)]
    simp [terminated]

/-- With the gap at one piece, that piece and the zeros behind it are left out. -/
theorem out_short (l r : List Nat) (x k : Nat) (hl : l.length + 1 + k + r.length = 8) (hr : r.head? ≠ some 0) :
    serializeIpv6Loop (some l.length) 0 false (l ++ x :: (List.replicate k 0 ++ r)) =
      join 0x3A (l.map hex) ++ [0x3A, 0x3A] ++ join 0x3A (r.map hex) := by
  rw [out_prefix l 0 l.length (by omega) (by omega), serializeIpv6Loop, if_neg (by simp), if_pos rfl,
    out_skip _ k _ r (by omega) hr (fun c h => by cases h; omega)]
  by_cases h0 : l = []
  · subst h0; simp [terminated, join]
  · rw [if_neg (by simpa using h0), terminated_join _ (by simpa using h0)]
    simp

theorem dropZeros (s : List Nat) : ∃ k r, s = List.replicate k 0 ++ r ∧ r.head? ≠ some 0 := by
  induction s with
  | nil => exact ⟨0, [], rfl, by simp⟩
  | cons c s ih =>
    by_cases h : c = 0
    · obtain ⟨k, r, rfl, h2⟩ := ih
      exact ⟨k + 1, r, by rw [h, List.replicate_succ]; rfl, h2⟩
    · exact ⟨0, c :: s, rfl, by simpa using h⟩

/-- The address with a piece cleared. -/
def gapped (a : List Nat) : Option Nat → List Nat
  | none => a
  | some i => a.set i 0

/-- The exact account of the round trip. -/
theorem roundtrip (a : List Nat) (h8 : a.length = 8) (hv : ∀ v ∈ a, v < 65536) (c : Option Nat) (hc : compressOf a = c)
    (hc7 : ∀ i, c = some i → i < 8) (ec : Ec) (fuel : Nat) (hf : (serializeIpv6 a).length ≤ fuel) :
    parseIpv6 fuel (serializeIpv6 a) ec = .stop (.ipv6 (gapped a c), ec) := by
  unfold serializeIpv6 at *
  rw [hc] at hf ⊢
  cases c with
  | none =>
    have e := out_plain none a 0 (by omega) (by simp)
    rw [e] at hf ⊢
    exact parse_full fuel ec (hex_pieces a hv) h8 hf
  | some i =>
    have hi := hc7 i rfl
    obtain ⟨k, r, h1, h2⟩ := dropZeros (a.drop (i + 1))
    have hlen : (a.take i).length = i := by simp; omega
    have e : a = a.take i ++ a[i] :: (List.replicate k 0 ++ r) := by
      rw [← h1, List.getElem_cons_drop, List.take_append_drop]
    have hkr : i + 1 + k + r.length = 8 := by
      have := congrArg List.length h1
      simp at this
      omega
    have hs := out_short (a.take i) r a[i] k (by omega) h2
    rw [hlen, ← e] at hs
    rw [hs] at hf ⊢
    have hr : ∀ v ∈ r, v < 65536 := fun v hv' => hv v (List.mem_of_mem_drop (i := i + 1) (by rw [h1]; simp [hv']))
    rw [parse_short fuel ec (hex_pieces _ fun v hv' => hv v (List.mem_of_mem_take hv')) (hex_pieces r hr) (by omega) hf]
    unfold gapped
    dsimp only
    have e2 : a.set i 0 = a.take i ++ 0 :: (List.replicate k 0 ++ r) := by
      conv_lhs => rw [e]
      rw [List.set_append_right _ _ (by omega), hlen, Nat.sub_self, List.set_cons_zero]
    rw [e2, hlen, show 8 - i - r.length = k + 1 from by omega, List.replicate_succ]
    simp

/-! ### Where the gap is -/

/-- `findCompress` on what is zero. -/
def findB : List Bool → Nat → Nat → Nat → Nat → Nat × Nat
  | [], _, longer, _, tail => (longer, tail)
  | z :: zs, i, longer, length, tail =>
    if z = true then
      if i = 7 then if longer < length + 1 then (length + 1, 8) else (longer, tail)
      else findB zs (i + 1) longer (length + 1) tail
    else if longer < length then findB zs (i + 1) length 0 i
    else findB zs (i + 1) longer length tail

theorem find_eq (a : List Nat) (i longer length tail : Nat) :
    findCompress a i longer length tail = findB (a.map (fun p => decide (p = 0))) i longer length tail := by
  induction a generalizing i longer length tail with
  | nil => rfl
  | cons p a ih =>
    rw [findCompress, List.map_cons, findB]
    simp only [ih, decide_eq_true_eq]

def runsB : List Bool → Nat
  | [] => 0
  | [p] => if p = true then 1 else 0
  | p :: q :: ps => (if p = true ∧ q = false then 1 else 0) + runsB (q :: ps)

theorem runs_eq (a : List Nat) : zeroRuns a = runsB (a.map (fun p => decide (p = 0))) := by
  match a with
  | [] => rfl
  | [p] => simp [zeroRuns, runsB]
  | p :: q :: ps =>
    rw [zeroRuns, runs_eq (q :: ps)]
    simp only [List.map_cons, runsB, decide_eq_true_eq, decide_eq_false_iff_not, ne_eq]

/-- A run of trues. -/
def runAt (z : List Bool) (i k : Nat) : Bool := (List.range k).all fun j => z[i + j]? == some true

/-- What is to be known about a pattern. -/
def bounded (z : List Bool) : Bool :=
  match findB z 0 0 0 0 with
  | (longer, tail) => decide (2 ≤ longer → longer ≤ tail ∧ tail ≤ 8)

def sound (z : List Bool) : Bool :=
  match findB z 0 0 0 0 with
  | (longer, tail) =>
    if 2 ≤ longer then
      runAt z (tail - longer) longer &&
      (List.range 9).all fun i => (List.range 9).all fun k =>
        !runAt z i k || (decide (k ≤ longer) && (k != longer || decide (tail - longer ≤ i)))
    else (List.range 7).all fun i => !runAt z i 2

theorem all_patterns : ∀ b0 b1 b2 b3 b4 b5 b6 b7 : Bool, bounded [b0, b1, b2, b3, b4, b5, b6, b7] = true ∧
    (runsB [b0, b1, b2, b3, b4, b5, b6, b7] ≤ 2 → sound [b0, b1, b2, b3, b4, b5, b6, b7] = true) := by
  decide +kernel

theorem pattern (z : List Bool) (h : z.length = 8) : bounded z = true ∧ (runsB z ≤ 2 → sound z = true) := by
  match z, h with
  | [b0, b1, b2, b3, b4, b5, b6, b7], _ => exact all_patterns b0 b1 b2 b3 b4 b5 b6 b7

theorem runAt_iff (a : List Nat) (i k : Nat) : runAt (a.map (fun p => decide (p = 0))) i k = true ↔ ∀ j < k, a[i + j]? = some 0 := by
  unfold runAt
  rw [List.all_eq_true]
  simp only [List.mem_range, beq_iff_eq, List.getElem?_map, Option.map_eq_some_iff, decide_eq_true_eq]
  constructor
  · intro h j hj
    obtain ⟨x, h1, rfl⟩ := h j hj
    exact h1
  · intro h j hj
    exact ⟨0, h j hj, rfl⟩

theorem split_run (a : List Nat) (i k : Nat) (h : ∀ j < k, a[i + j]? = some 0) (hi : i ≤ a.length) :
    a = a.take i ++ List.replicate k 0 ++ a.drop (i + k) := by
  induction k with
  | zero => simp
  | succ k ih =>
    have h1 := ih fun j hj => h j (by omega)
    have h2 := h k (by omega)
    obtain ⟨h3, h4⟩ := List.getElem?_eq_some_iff.mp h2
    conv_lhs => rw [h1]
    rw [← List.getElem_cons_drop h3, h4, List.replicate_succ']
    simp [Nat.add_assoc]

theorem run_of_split (l r : List Nat) (k : Nat) : ∀ j < k, (l ++ List.replicate k 0 ++ r)[l.length + j]? = some 0 := by
  intro j hj
  rw [List.append_assoc, List.getElem?_append_right (by omega), show l.length + j - l.length = j from by omega,
    List.getElem?_append_left (by simpa using hj)]
  simp [hj]

theorem compress_bound (a : List Nat) (h8 : a.length = 8) : ∀ i, compressOf a = some i → i < 8 := by
  intro i hi
  have := (pattern (a.map (fun p => decide (p = 0))) (by simpa using h8)).1
  unfold bounded at this
  unfold compressOf at hi
  rw [find_eq] at hi
  generalize findB (a.map (fun p => decide (p = 0))) 0 0 0 0 = x at *
  obtain ⟨longer, tail⟩ := x
  simp only [decide_eq_true_eq] at this
  dsimp only at hi
  split at hi
  · cases hi; have := this ‹_›; omega
  · cases hi

theorem canonical (a : List Nat) (h8 : a.length = 8) (hz : zeroRuns a ≤ 2) :
    V6Canonical a (serializeIpv6 a) ∧ ∀ i, compressOf a = some i → a[i]? = some 0 := by
  obtain ⟨hb, hs⟩ := pattern (a.map (fun p => decide (p = 0))) (by simpa using h8)
  have hs := hs (by rw [← runs_eq]; exact hz)
  unfold bounded at hb
  unfold sound at hs
  unfold serializeIpv6
  have hcomp : compressOf a = match findB (a.map (fun p => decide (p = 0))) 0 0 0 0 with
      | (longer, tail) => if 2 ≤ longer then some (tail - longer) else none := by unfold compressOf; rw [find_eq]
  rw [hcomp]
  generalize findB (a.map (fun p => decide (p = 0))) 0 0 0 0 = x at *
  obtain ⟨longer, tail⟩ := x
  dsimp only at *
  simp only [decide_eq_true_eq] at hb
  by_cases h2 : 2 ≤ longer
  · obtain ⟨hb1, hb2⟩ := hb h2
    rw [if_pos h2] at hs ⊢
    rw [Bool.and_eq_true, runAt_iff] at hs
    obtain ⟨hs1, hs2⟩ := hs
    have hmax : ∀ i k, (∀ j < k, a[i + j]? = some 0) → k ≤ 8 → i ≤ 8 → k ≤ longer ∧ (k = longer → tail - longer ≤ i) := by
      intro i k hrun hk hi
      have := List.all_eq_true.mp (List.all_eq_true.mp hs2 i (List.mem_range.mpr (by omega))) k (List.mem_range.mpr (by omega))
      rw [Bool.or_eq_true, (runAt_iff a i k).mpr hrun] at this
      simp only [Bool.not_true, Bool.false_eq_true, false_or, Bool.and_eq_true, decide_eq_true_eq, Bool.or_eq_true, bne_iff_ne] at this
      exact ⟨this.1, fun h => this.2.resolve_left (fun h' => h' h)⟩
    have hsp := split_run a (tail - longer) longer hs1 (by omega)
    rw [show tail - longer + longer = tail from by omega] at hsp
    have hlen : (a.take (tail - longer)).length = tail - longer := by simp; omega
    have hhead : (a.drop tail).head? ≠ some 0 := by
      intro hh
      rw [List.head?_drop] at hh
      have h1 := (hmax (tail - longer) (longer + 1) (fun j hj => by
        by_cases h : j < longer
        · exact hs1 j h
        · rw [show tail - longer + j = tail from by omega]; exact hh) (by
          have := (List.getElem?_eq_some_iff.mp hh).1; omega) (by omega)).1
      omega
    constructor
    · have hout := out_short (a.take (tail - longer)) (a.drop tail) 0 (longer - 1) (by simp; omega) hhead
      rw [hlen] at hout
      have e : a.take (tail - longer) ++ 0 :: (List.replicate (longer - 1) 0 ++ a.drop tail) = a := by
        conv_rhs => rw [hsp]
        rw [show longer = (longer - 1) + 1 from by omega, List.replicate_succ]
        simp
      rw [e] at hout
      rw [hout]
      have hcan := V6Canonical.short (l := a.take (tail - longer)) (r := a.drop tail) h2 (by
        rw [← hsp]
        intro l' k' r' he
        rw [hlen]
        have hl := congrArg List.length he
        simp only [List.length_append, List.length_replicate] at hl
        exact hmax l'.length k' (by rw [he]; exact run_of_split l' r' k') (by omega) (by omega))
      rw [← hsp] at hcan
      exact hcan
    · intro i hi
      cases hi
      have := hs1 0 (by omega)
      simpa using this
  · rw [if_neg h2] at hs ⊢
    constructor
    · rw [out_plain none a 0 (by omega) (by simp)]
      refine .full ?_
      rintro ⟨l, r, he⟩
      have hl := congrArg List.length he
      simp only [List.length_append, List.length_cons] at hl
      have := List.all_eq_true.mp hs l.length (List.mem_range.mpr (by omega))
      rw [Bool.not_eq_true', ← Bool.not_eq_true, runAt_iff] at this
      refine this fun j hj => ?_
      have := run_of_split l r 2 j hj
      rw [he]
      simpa using this
    · intro i hi; cases hi

end Verif.Proof.Host6Text
