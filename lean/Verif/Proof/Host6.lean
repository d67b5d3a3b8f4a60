import Verif.Proof.Host4
namespace Verif.Proof.Host6
open Verif.Model.Infra Verif.Model.Unicode Verif.Model.Coder Verif.Model.Percent Verif.Model.Host
open Verif.Spec Verif.Spec.Infra Verif.Spec.Percent Verif.Spec.Host Verif.Proof.Digits Verif.Proof.Host4

theorem isDigitOf16 (c : Nat) : isDigitOf 16 c = isAsciiHexDigit c := by
  unfold isDigitOf
  cases h : isAsciiHexDigit c with
  | false => rfl
  | true =>
    have : digitVal c < 16 := by
      unfold isAsciiHexDigit isAsciiUpperHexDigit isAsciiLowerHexDigit isAsciiDigit at h
      simp only [Bool.or_eq_true, Bool.and_eq_true, decide_eq_true_eq] at h
      unfold digitVal
      split
      · omega
      · split <;> omega
    simp [this]

theorem piece_iff (p : List Nat) (v : Nat) :
    Piece p v ↔ p ≠ [] ∧ (∀ c ∈ p, isAsciiHexDigit c = true) ∧ v = fromChars 16 p ∧ p.length ≤ 4 := by
  unfold Piece
  rw [numeral_iff]
  simp only [isDigitOf16]
  tauto

theorem value_eq {c : Nat} (h : isAsciiHexDigit c = true) :
    (if 0x30 ≤ c ∧ c ≤ 0x39 then c - 0x30 else if 0x61 ≤ c ∧ c ≤ 0x66 then c - 0x61 + 10 else c - 0x41 + 10) = digitVal c := by
  unfold isAsciiHexDigit isAsciiUpperHexDigit isAsciiLowerHexDigit isAsciiDigit at h
  simp only [Bool.or_eq_true, Bool.and_eq_true, decide_eq_true_eq] at h
  unfold digitVal
  split
  · split <;> omega
  · split <;> split <;> (try split) <;> omega

theorem readPiece_eq (p r : List Nat) (len v : Nat) (hp : ∀ c ∈ p, isAsciiHexDigit c = true) (hl : len + p.length ≤ 4)
    (hr : ∀ c, r.head? = some c → isAsciiHexDigit c = false) :
    readPiece len v (p ++ r) = (p.foldl (fun n c => n * 16 + digitVal c) v, len + p.length, r) := by
  induction p generalizing len v with
  | nil =>
    cases r with
    | nil => rw [List.nil_append, readPiece]; rfl
    | cons c r =>
      rw [List.nil_append, readPiece, if_neg]
      · rfl
      · intro h; rw [hr c rfl] at h; exact absurd h.2 (by decide)
  | cons c p ih =>
    have hc := hp c (by simp)
    simp only [List.length_cons] at hl
    rw [List.cons_append, readPiece, if_pos ⟨by omega, hc⟩, value_eq hc,
      ih (len + 1) _ (fun x hx => hp x (by simp [hx])) (by omega)]
    simp only [List.foldl_cons, List.length_cons]
    congr 2
    omega

theorem readPiece_inv (s : List Nat) (len v : Nat) (hl : len ≤ 4) :
    ∃ p r, s = p ++ r ∧ (∀ c ∈ p, isAsciiHexDigit c = true) ∧ len + p.length ≤ 4 ∧
      readPiece len v s = (p.foldl (fun n c => n * 16 + digitVal c) v, len + p.length, r) := by
  induction s generalizing len v with
  | nil => exact ⟨[], [], rfl, by simp, by simpa using hl, by rw [readPiece]; rfl⟩
  | cons c s ih =>
    by_cases h : len < 4 ∧ isAsciiHexDigit c = true
    · obtain ⟨p, r, rfl, h2, h3, h4⟩ := ih (len + 1) (v * 16 + digitVal c) (by omega)
      refine ⟨c :: p, r, rfl, ?_, by simp only [List.length_cons]; omega, ?_⟩
      · intro x hx
        rcases List.mem_cons.mp hx with rfl | hx
        · exact h.2
        · exact h2 x hx
      · rw [readPiece, if_pos h, value_eq h.2, h4]
        simp only [List.foldl_cons, List.length_cons]
        congr 2
        omega
    · exact ⟨[], c :: s, rfl, by simp, by simpa using hl, by rw [readPiece, if_neg h]; rfl⟩

/-- The address with the pieces read so far. -/
def part (ws : List Nat) : List Nat := ws ++ List.replicate (8 - ws.length) 0

theorem part_length (ws : List Nat) (h : ws.length ≤ 8) : (part ws).length = 8 := by simp [part]; omega

theorem part_set (ws : List Nat) (v : Nat) (h : ws.length < 8) : (part ws).set ws.length v = part (ws ++ [v]) := by
  unfold part
  have e : 8 - ws.length = (8 - (ws.length + 1)) + 1 := by omega
  rw [List.set_append_right _ _ (Nat.le_refl _), Nat.sub_self, e, List.replicate_succ, List.set_cons_zero]
  simp

theorem part_zero (ws : List Nat) (h : ws.length < 8) : part ws = part (ws ++ [0]) := by
  unfold part
  have e : 8 - ws.length = (8 - (ws.length + 1)) + 1 := by omega
  rw [e, List.replicate_succ]
  simp

theorem loop_cons (ec : Ec) (fuel : Nat) (address : List Nat) (pieceIndex : Nat) (compress : Option Nat) (c : Nat) (s : List Nat) :
    ipv6Loop ec (fuel + 1) address pieceIndex compress (c :: s) =
    if pieceIndex = 8 then .stop (.null, ec) else
    if c = 0x3A then
      match compress with
      | some _ => .stop (.null, some .validationError)
      | none => ipv6Loop ec fuel address (pieceIndex + 1) (some (pieceIndex + 1)) s
    else
      match readPiece 0 0 (c :: s) with
      | (value, length, rest) =>
        match rest with
        | [] => ipv6Loop ec fuel (address.set pieceIndex value) (pieceIndex + 1) compress []
        | d :: r =>
          if d = 0x2E then embeddedIpv4 length pieceIndex (c :: s)
          else if d = 0x3A then
            if r = [] then .stop (.null, some .validationError)
            else ipv6Loop ec fuel (address.set pieceIndex value) (pieceIndex + 1) compress r
          else .stop (.null, some .validationError) := rfl

theorem loop_nil (ec : Ec) (fuel : Nat) (a : List Nat) (i : Nat) (cp : Option Nat) :
    ipv6Loop ec fuel a i cp [] = .stop (finishIpv6 a i cp ec) := by
  cases fuel <;> rfl

/-- A piece at the end. -/
theorem step_end (ec : Ec) (fuel : Nat) (ws : List Nat) (cp : Option Nat) (p : List Nat) (v : Nat) (hp : Piece p v)
    (hw : ws.length < 8) :
    ipv6Loop ec (fuel + 1) (part ws) ws.length cp p = .stop (finishIpv6 (part (ws ++ [v])) (ws.length + 1) cp ec) := by
  obtain ⟨h1, h2, rfl, h4⟩ := (piece_iff p v).mp hp
  cases p with
  | nil => exact absurd rfl h1
  | cons c s =>
    have hc : c ≠ 0x3A := by rintro rfl; exact absurd (h2 0x3A (by simp)) (by decide)
    have hr := readPiece_eq (c :: s) [] 0 0 h2 (by simpa using h4) (by simp)
    rw [List.append_nil] at hr
    rw [loop_cons, if_neg (by omega), if_neg hc, hr]
    dsimp only
    rw [part_set ws _ hw]
    rw [loop_nil]
    rfl

/-- A piece before a colon. -/
theorem step_colon (ec : Ec) (fuel : Nat) (ws : List Nat) (cp : Option Nat) (p : List Nat) (v : Nat) (hp : Piece p v)
    (hw : ws.length < 8) (t : List Nat) (ht : t ≠ []) :
    ipv6Loop ec (fuel + 1) (part ws) ws.length cp (p ++ 0x3A :: t) =
      ipv6Loop ec fuel (part (ws ++ [v])) (ws.length + 1) cp t := by
  obtain ⟨h1, h2, rfl, h4⟩ := (piece_iff p v).mp hp
  cases p with
  | nil => exact absurd rfl h1
  | cons c s =>
    have hc : c ≠ 0x3A := by rintro rfl; exact absurd (h2 0x3A (by simp)) (by decide)
    have hr := readPiece_eq (c :: s) (0x3A :: t) 0 0 h2 (by simpa using h4) (by
      intro c hc; simp at hc; subst hc; decide)
    rw [List.cons_append] at hr ⊢
    rw [loop_cons, if_neg (by omega), if_neg hc, hr]
    dsimp only
    rw [if_neg (by omega), if_pos rfl, if_neg ht, part_set ws _ hw]
    rfl

/-- Pieces with a colon behind each. -/
def terminated (ps : List (List Nat)) : List Nat := ps.flatMap (· ++ [0x3A])

theorem terminated_join (ps : List (List Nat)) (h : ps ≠ []) : terminated ps = join 0x3A ps ++ [0x3A] := by
  induction ps with
  | nil => exact absurd rfl h
  | cons p ps ih =>
    cases ps with
    | nil => simp [terminated, join]
    | cons q ps =>
      have := ih (by simp)
      simp only [terminated, List.flatMap_cons] at this ⊢
      rw [join, this]
      · simp
      · simp

theorem piece_ne_nil {p : List Nat} {v : Nat} (h : Piece p v) : p ≠ [] := ((piece_iff p v).mp h).1

theorem loop_prefix (ec : Ec) (ps : List (List Nat)) (vs : List Nat) (hp : List.Forall₂ Piece ps vs) (ws : List Nat)
    (cp : Option Nat) (fuel : Nat) (t : List Nat) (ht : t ≠ []) (hw : ws.length + vs.length ≤ 8) :
    ipv6Loop ec (fuel + ps.length) (part ws) ws.length cp (terminated ps ++ t) =
      ipv6Loop ec fuel (part (ws ++ vs)) (ws.length + vs.length) cp t := by
  induction hp generalizing ws with
  | nil => simp [terminated]
  | @cons p v ps vs h hp ih =>
    simp only [List.length_cons] at hw
    have e : terminated (p :: ps) ++ t = p ++ 0x3A :: (terminated ps ++ t) := by simp [terminated]
    rw [e, List.length_cons, ← Nat.add_assoc, step_colon ec _ ws cp p v h (by omega) _ (by simp [ht])]
    have := ih (ws ++ [v]) (by simp; omega)
    simp only [List.length_append, List.length_cons, List.length_nil, Nat.zero_add] at this
    rw [this]
    simp only [List.append_assoc, List.cons_append, List.nil_append, List.length_cons]
    congr 1
    omega

theorem forall₂_snoc {α β : Type} {R : α → β → Prop} {l : List α} {a : α} {m : List β} (h : List.Forall₂ R (l ++ [a]) m) :
    ∃ m' b, m = m' ++ [b] ∧ List.Forall₂ R l m' ∧ R a b := by
  induction l generalizing m with
  | nil =>
    cases h with
    | cons h1 h2 => cases h2; exact ⟨[], _, rfl, .nil, h1⟩
  | cons x l ih =>
    cases h with
    | cons h1 h2 =>
      obtain ⟨m', b, rfl, h3, h4⟩ := ih h2
      exact ⟨_ :: m', b, rfl, .cons h1 h3, h4⟩

theorem join_last (ps : List (List Nat)) (p : List Nat) : join 0x3A (ps ++ [p]) = terminated ps ++ p := by
  induction ps with
  | nil => simp [join, terminated]
  | cons q ps ih =>
    have : ps ++ [p] ≠ [] := by simp
    cases h : ps ++ [p] with
    | nil => exact absurd h this
    | cons x xs =>
      rw [List.cons_append, h, join, ← h, ih]
      · simp [terminated]
      · simp

theorem loop_join (ec : Ec) (ps : List (List Nat)) (vs : List Nat) (hp : List.Forall₂ Piece ps vs) (ws : List Nat)
    (cp : Option Nat) (fuel : Nat) (hf : ps.length ≤ fuel) (hw : ws.length + vs.length ≤ 8) :
    ipv6Loop ec fuel (part ws) ws.length cp (join 0x3A ps) =
      .stop (finishIpv6 (part (ws ++ vs)) (ws.length + vs.length) cp ec) := by
  induction ps using List.reverseRecOn generalizing vs with
  | nil => cases hp; simp [join, loop_nil]
  | append_singleton ps p ih =>
    obtain ⟨vs', v, rfl, h1, hv⟩ := forall₂_snoc hp
    simp only [List.length_append, List.length_cons, List.length_nil] at hw hf
    obtain ⟨k, rfl⟩ : ∃ k, fuel = k + 1 + ps.length := ⟨fuel - ps.length - 1, by omega⟩
    rw [join_last, loop_prefix ec ps vs' h1 ws cp _ p (piece_ne_nil hv) (by omega)]
    have := step_end ec k (ws ++ vs') cp p v hv (by simp; omega)
    rw [List.length_append] at this
    rw [this]
    simp [Nat.add_assoc]

/-! ### Moving the pieces behind the gap -/

theorem swap_spec (pre r done : List Nat) (k : Nat) (h1 : pre ≠ []) :
    swapLoop pre.length (pre.length + r.length + k - 1) r.length (pre ++ r ++ List.replicate k 0 ++ done) =
      pre ++ List.replicate k 0 ++ r ++ done := by
  have hpos : 0 < pre.length := List.length_pos_iff.mpr h1
  induction r using List.reverseRecOn generalizing done with
  | nil => simp [swapLoop]
  | append_singleton r x ih =>
    rw [List.length_append, List.length_singleton, swapLoop, if_neg (by omega)]
    have e1 : pre.length + (r.length + 1) + k - 1 = pre.length + r.length + k := by omega
    rw [e1]
    have key : ((pre ++ (r ++ [x]) ++ List.replicate k 0 ++ done).set (pre.length + r.length + k)
        ((pre ++ (r ++ [x]) ++ List.replicate k 0 ++ done).getD (pre.length + r.length) 0)).set (pre.length + r.length)
        ((pre ++ (r ++ [x]) ++ List.replicate k 0 ++ done).getD (pre.length + r.length + k) 0) =
        pre ++ r ++ List.replicate k 0 ++ (x :: done) := by
      have hA : (pre ++ (r ++ [x]) ++ List.replicate k 0 ++ done) = (pre ++ r) ++ (x :: (List.replicate k 0 ++ done)) := by simp
      have hn : pre.length + r.length = (pre ++ r).length := by simp
      have hR : pre ++ r ++ List.replicate k 0 ++ (x :: done) = (pre ++ r) ++ (List.replicate k 0 ++ (x :: done)) := by simp
      rw [hA, hR, hn]
      generalize pre ++ r = q
      have g1 : (q ++ x :: (List.replicate k 0 ++ done)).getD q.length 0 = x := by simp
      rw [g1]
      cases k with
      | zero => simp
      | succ k =>
        have g2 : (q ++ x :: (List.replicate (k + 1) 0 ++ done)).getD (q.length + (k + 1)) 0 = 0 := by
          rw [List.getD_eq_getElem?_getD, List.getElem?_append_right (by omega), show q.length + (k + 1) - q.length = k + 1 from by omega,
            List.getElem?_cons_succ, List.getElem?_append_left (by simp)]
          simp
        have g3 : (q ++ x :: (List.replicate (k + 1) 0 ++ done)).set (q.length + (k + 1)) x =
            q ++ x :: (List.replicate k 0 ++ x :: done) := by
          rw [List.set_append_right _ _ (by omega), show q.length + (k + 1) - q.length = k + 1 from by omega, List.set_cons_succ,
            List.replicate_succ', List.append_assoc, List.set_append_right _ _ (by simp), List.length_replicate, Nat.sub_self]
          rfl
        rw [g2, g3, List.set_append_right _ _ (Nat.le_refl _), Nat.sub_self, List.set_cons_zero, List.replicate_succ]
        rfl
    rw [key]
    have := ih (x :: done)
    rw [this]
    simp

theorem finish_compress (l r : List Nat) (h : l.length + r.length ≤ 7) (ec : Ec) :
    finishIpv6 (part (l ++ 0 :: r)) (l.length + 1 + r.length) (some (l.length + 1)) ec =
      (.ipv6 (l ++ List.replicate (8 - l.length - r.length) 0 ++ r), ec) := by
  unfold finishIpv6
  dsimp only
  have hs := swap_spec (l ++ [0]) r [] (7 - l.length - r.length) (by simp)
  have e1 : (l ++ [0]).length = l.length + 1 := by simp
  have e2 : l.length + 1 + r.length + (7 - l.length - r.length) - 1 = 7 := by omega
  rw [e1, e2] at hs
  have e3 : part (l ++ 0 :: r) = l ++ [0] ++ r ++ List.replicate (7 - l.length - r.length) 0 ++ [] := by
    simp only [part, List.length_append, List.length_cons]
    rw [show 8 - (l.length + (r.length + 1)) = 7 - l.length - r.length from by omega]
    simp
  rw [show l.length + 1 + r.length - (l.length + 1) = r.length from by omega, e3, hs]
  congr 2
  rw [show 8 - l.length - r.length = (7 - l.length - r.length) + 1 from by omega, List.replicate_succ]
  simp

/-! ### Every other text is rejected -/

theorem join_cons_ne (p : List Nat) (ps : List (List Nat)) (h : ps ≠ []) : join 0x3A (p :: ps) = p ++ 0x3A :: join 0x3A ps := by
  cases ps with
  | nil => exact absurd rfl h
  | cons q ps => rw [join]; simp

theorem loop_sound (ec : Ec) (fuel : Nat) : ∀ (ws : List Nat) (cp : Option Nat) (s : List Nat) (a : List Nat) (ec' : Ec),
    ws.length ≤ 8 → ipv6Loop ec fuel (part ws) ws.length cp s = .stop (.ipv6 a, ec') →
    (∃ ps vs, List.Forall₂ Piece ps vs ∧ s = join 0x3A ps ∧ ws.length + vs.length ≤ 8 ∧
      finishIpv6 (part (ws ++ vs)) (ws.length + vs.length) cp ec = (.ipv6 a, ec')) ∨
    (cp = none ∧ ∃ ps vs qs us, List.Forall₂ Piece ps vs ∧ List.Forall₂ Piece qs us ∧
      s = terminated ps ++ 0x3A :: join 0x3A qs ∧ ws.length + vs.length + 1 + us.length ≤ 8 ∧
      finishIpv6 (part (ws ++ vs ++ 0 :: us)) (ws.length + vs.length + 1 + us.length) (some (ws.length + vs.length + 1)) ec =
        (.ipv6 a, ec')) := by
  induction fuel with
  | zero =>
    intro ws cp s a ec' hw h
    cases s with
    | cons c s => cases h
    | nil =>
      rw [loop_nil] at h
      exact Or.inl ⟨[], [], .nil, rfl, by simpa using hw, by simpa using h⟩
  | succ fuel ih =>
    intro ws cp s a ec' hw h
    cases s with
    | nil =>
      rw [loop_nil] at h
      exact Or.inl ⟨[], [], .nil, rfl, by simpa using hw, by simpa using h⟩
    | cons c s =>
      rw [loop_cons] at h
      by_cases h8 : ws.length = 8
      · rw [if_pos h8] at h; cases h
      rw [if_neg h8] at h
      by_cases hc : c = 0x3A
      · rw [if_pos hc] at h
        cases cp with
        | some _ => cases h
        | none =>
          dsimp only at h
          rw [part_zero ws (by omega), show ws.length + 1 = (ws ++ [0]).length from by simp] at h
          rcases ih _ _ _ _ _ (by simp; omega) h with ⟨qs, us, h1, h2, h3, h4⟩ | ⟨h0, _⟩
          · refine Or.inr ⟨rfl, [], [], qs, us, .nil, h1, ?_, ?_, ?_⟩
            · rw [h2, hc]; rfl
            · simpa using h3
            · simpa using h4
          · cases h0
      · rw [if_neg hc] at h
        obtain ⟨p, r, h1, h2, h3, h4⟩ := readPiece_inv (c :: s) 0 0 (by omega)
        rw [h4] at h
        dsimp only at h
        have hp : p ≠ [] → Piece p (p.foldl (fun n c => n * 16 + digitVal c) 0) := fun hne =>
          (piece_iff _ _).mpr ⟨hne, h2, rfl, by omega⟩
        cases r with
        | nil =>
          dsimp only at h
          rw [List.append_nil] at h1
          have hP := hp (by rw [← h1]; simp)
          rw [loop_nil, part_set ws _ (by omega)] at h
          refine Or.inl ⟨[p], [_], .cons hP .nil, h1, by simp; omega, ?_⟩
          simpa using h
        | cons d r =>
          dsimp only at h
          by_cases hdd : d = 0x2E
          · rw [if_pos hdd] at h
            unfold embeddedIpv4 at h
            repeat' split at h
            all_goals cases h
          rw [if_neg hdd] at h
          by_cases hd3 : d = 0x3A
          · rw [if_pos hd3] at h
            by_cases hr : r = []
            · rw [if_pos hr] at h; cases h
            rw [if_neg hr] at h
            have hP := hp (by
              rintro rfl
              rw [List.nil_append] at h1
              injection h1 with h1 _
              exact hc (h1.trans hd3))
            rw [part_set ws _ (by omega)] at h
            generalize p.foldl (fun n c => n * 16 + digitVal c) 0 = v at *
            rw [show ws.length + 1 = (ws ++ [v]).length from by simp] at h
            rcases ih _ _ _ _ _ (by simp; omega) h with
              ⟨ps, vs, g1, g2, g3, g4⟩ | ⟨h0, ps, vs, qs, us, g1, g1', g2, g3, g4⟩
            · refine Or.inl ⟨p :: ps, v :: vs, .cons hP g1, ?_, ?_, ?_⟩
              · rw [join_cons_ne p ps (by rintro rfl; exact hr g2), ← g2, h1, hd3]
              · simp at g3 ⊢; omega
              · rw [show ws ++ v :: vs = ws ++ [v] ++ vs from by simp, ← g4]
                congr 1
                simp; omega
            · refine Or.inr ⟨h0, p :: ps, v :: vs, qs, us, .cons hP g1, g1', ?_, ?_, ?_⟩
              · rw [h1, hd3, g2]; simp [terminated]
              · simp at g3 ⊢; omega
              · rw [show ws ++ v :: vs ++ 0 :: us = ws ++ [v] ++ vs ++ 0 :: us from by simp, ← g4]
                congr 1
                · simp; omega
                · simp; omega
          · rw [if_neg hd3] at h; cases h

/-- Without a dot there is always a result. -/
theorem loop_total (ec : Ec) (fuel : Nat) : ∀ (a : List Nat) (i : Nat) (cp : Option Nat) (s : List Nat),
    0x2E ∉ s → s.length ≤ fuel →
    ∃ h ec', ipv6Loop ec fuel a i cp s = .stop (h, ec') ∧ (h = .null ∨ ∃ a, h = .ipv6 a) ∧ (h ≠ .null → ec' = ec) := by
  have fin : ∀ a i cp, ∃ h ec', finishIpv6 a i cp ec = (h, ec') ∧ (h = .null ∨ ∃ a, h = .ipv6 a) ∧ (h ≠ .null → ec' = ec) := by
    intro a i cp
    unfold finishIpv6
    cases cp with
    | some c => exact ⟨_, _, rfl, Or.inr ⟨_, rfl⟩, fun _ => rfl⟩
    | none =>
      dsimp only
      split
      · exact ⟨_, _, rfl, Or.inl rfl, fun h => absurd rfl h⟩
      · exact ⟨_, _, rfl, Or.inr ⟨_, rfl⟩, fun _ => rfl⟩
  have nul : ∀ e : Ec, ∃ h ec', Ends.stop (Host.null, e) = .stop (h, ec') ∧ (h = .null ∨ ∃ a, h = .ipv6 a) ∧ (h ≠ .null → ec' = ec) :=
    fun e => ⟨_, _, rfl, Or.inl rfl, fun h => absurd rfl h⟩
  induction fuel with
  | zero =>
    intro a i cp s hd hl
    cases s with
    | nil =>
      obtain ⟨h, e, h1, h2⟩ := fin a i cp
      exact ⟨h, e, by rw [loop_nil, h1], h2⟩
    | cons c s => simp at hl
  | succ fuel ih =>
    intro a i cp s hd hl
    cases s with
    | nil =>
      obtain ⟨h, e, h1, h2⟩ := fin a i cp
      exact ⟨h, e, by rw [loop_nil, h1], h2⟩
    | cons c s =>
      simp only [List.length_cons] at hl
      rw [loop_cons]
      by_cases h8 : i = 8
      · rw [if_pos h8]; exact nul _
      rw [if_neg h8]
      by_cases hc : c = 0x3A
      · rw [if_pos hc]
        cases cp with
        | some _ => exact nul _
        | none => exact ih _ _ _ _ (fun hh => hd (by simp [hh])) (by omega)
      rw [if_neg hc]
      obtain ⟨p, r, h1, h2, h3, h4⟩ := readPiece_inv (c :: s) 0 0 (by omega)
      rw [h4]
      dsimp only
      cases r with
      | nil => exact ih _ _ _ _ (by simp) (by simp)
      | cons d r =>
        dsimp only
        have hdd : d ≠ 0x2E := by rintro rfl; exact hd (by rw [h1]; simp)
        rw [if_neg hdd]
        by_cases hd3 : d = 0x3A
        · rw [if_pos hd3]
          by_cases hr : r = []
          · rw [if_pos hr]; exact nul _
          rw [if_neg hr]
          refine ih _ _ _ _ (fun hh => hd (by rw [h1]; simp [hh])) ?_
          have := congrArg List.length h1
          simp at this
          omega
        · rw [if_neg hd3]; exact nul _

theorem parse_total (fuel : Nat) (s : List Nat) (ec : Ec) (hd : 0x2E ∉ s) (hf : s.length ≤ fuel) :
    ∃ h ec', parseIpv6 fuel s ec = .stop (h, ec') ∧ (h = .null ∨ ∃ a, h = .ipv6 a) ∧ (h ≠ .null → ec' = ec) := by
  unfold parseIpv6
  split
  · split
    · simp only [List.mem_cons, not_or, List.length_cons] at hd hf
      exact loop_total ec fuel _ _ _ _ hd.2.2 (by omega)
    · exact ⟨_, _, rfl, Or.inl rfl, fun h => absurd rfl h⟩
  · exact loop_total ec fuel _ _ _ _ hd hf

theorem pieces_of_forall₂ {ps : List (List Nat)} {vs : List Nat} (h : List.Forall₂ Piece ps vs) : Pieces ps vs := by
  induction h with
  | nil => exact .nil
  | cons h _ ih => exact .cons h ih

theorem parse_sound (fuel : Nat) (s : List Nat) (ec ec' : Ec) (a : List Nat)
    (h : parseIpv6 fuel s ec = .stop (.ipv6 a, ec')) : V6 s a := by
  have e0 : List.replicate 8 0 = part [] := rfl
  unfold parseIpv6 at h
  split at h
  · rename_i t
    split at h
    · rename_i r
      rw [e0, show part [] = part [0] from rfl] at h
      rcases loop_sound ec fuel [0] _ _ _ _ (by simp) h with ⟨ps, vs, h1, h2, h3, h4⟩ | ⟨h0, _⟩
      · have hl : ([] : List Nat).length + vs.length ≤ 7 := by simp at h3 ⊢; omega
        have := finish_compress [] vs hl ec
        simp only [List.length_nil, Nat.zero_add, List.nil_append] at this
        simp only [List.length_singleton, List.singleton_append] at h4
        rw [this] at h4
        injection h4 with h4 _
        injection h4 with h4
        rw [h2, ← h4]
        have := V6.short (ls := []) (l := []) .nil (pieces_of_forall₂ h1) hl
        simpa [join] using this
      · cases h0
    · cases h
  · rename_i hs
    rw [e0, show (0 : Nat) = ([] : List Nat).length from rfl] at h
    rcases loop_sound ec fuel [] _ _ _ _ (by simp) h with ⟨ps, vs, h1, h2, h3, h4⟩ | ⟨_, ps, vs, qs, us, h1, h1', h2, h3, h4⟩
    · simp only [List.length_nil, Nat.zero_add, List.nil_append] at h3 h4
      unfold finishIpv6 at h4
      dsimp only at h4
      by_cases hv : vs.length = 8
      · rw [if_neg (by omega)] at h4
        injection h4 with h4 _
        injection h4 with h4
        rw [h2, ← h4]
        have := V6.full (pieces_of_forall₂ h1) hv
        simpa [part, hv] using this
      · rw [if_pos hv] at h4
        injection h4 with h4 _
        cases h4
    · have hne : ps ≠ [] := by
        rintro rfl
        exact hs _ h2
      have hl : vs.length + us.length ≤ 7 := by simp at h3; omega
      have := finish_compress vs us hl ec
      simp only [List.length_nil, Nat.zero_add, List.nil_append] at h4
      rw [this] at h4
      injection h4 with h4 _
      injection h4 with h4
      rw [h2, ← h4, terminated_join ps hne]
      have := V6.short h1 (pieces_of_forall₂ h1') hl
      simpa using this

/-! ### Every text is accepted -/

theorem join_length (ps : List (List Nat)) (h : ∀ p ∈ ps, p ≠ []) : ps.length ≤ (join 0x3A ps).length := by
  induction ps with
  | nil => simp
  | cons p ps ih =>
    have hp : 0 < p.length := List.length_pos_iff.mpr (h p (by simp))
    by_cases hps : ps = []
    · subst hps; simp [join]; omega
    · rw [join_cons_ne p ps hps]
      have := ih fun q hq => h q (by simp [hq])
      simp only [List.length_cons, List.length_append]
      omega

theorem forall₂_ne {ps : List (List Nat)} {vs : List Nat} (h : List.Forall₂ Piece ps vs) : ∀ p ∈ ps, p ≠ [] := by
  induction h with
  | nil => simp
  | cons h _ ih =>
    intro p hp
    rcases List.mem_cons.mp hp with rfl | hp
    · exact piece_ne_nil h
    · exact ih p hp

theorem join_head {ps : List (List Nat)} {vs : List Nat} (h : List.Forall₂ Piece ps vs) (t : List Nat) :
    join 0x3A ps = [] ∨ ∃ c s, join 0x3A ps = c :: s ∧ c ≠ 0x3A := by
  cases h with
  | nil => exact Or.inl rfl
  | @cons p v ps vs h hs =>
    obtain ⟨h1, h2, _⟩ := (piece_iff p v).mp h
    cases p with
    | nil => exact absurd rfl h1
    | cons c p =>
      have hc : c ≠ 0x3A := by rintro rfl; exact absurd (h2 0x3A (by simp)) (by decide)
      by_cases hps : ps = []
      · subst hps; exact Or.inr ⟨c, p, rfl, hc⟩
      · rw [join_cons_ne _ _ hps]; exact Or.inr ⟨c, _, rfl, hc⟩

theorem parse_plain (fuel : Nat) (s : List Nat) (ec : Ec) (h : ∀ t, s ≠ 0x3A :: t) :
    parseIpv6 fuel s ec = ipv6Loop ec fuel (part []) ([] : List Nat).length none s := by
  unfold parseIpv6
  split
  · rename_i t; exact absurd rfl (h t)
  · rfl

theorem parse_full (fuel : Nat) (ec : Ec) {ps : List (List Nat)} {vs : List Nat} (h : List.Forall₂ Piece ps vs)
    (h8 : vs.length = 8) (hf : (join 0x3A ps).length ≤ fuel) : parseIpv6 fuel (join 0x3A ps) ec = .stop (.ipv6 vs, ec) := by
  rw [parse_plain]
  · rw [loop_join ec ps vs h [] none fuel (by have := join_length ps (forall₂_ne h); omega) (by simp [h8])]
    simp [finishIpv6, part, h8]
  · intro t ht
    rcases join_head h [] with h1 | ⟨c, s, h1, h2⟩
    · rw [h1] at ht; cases ht
    · rw [h1] at ht; injection ht with h3 _; exact h2 h3

theorem parse_short (fuel : Nat) (ec : Ec) {ls rs : List (List Nat)} {l r : List Nat} (hl : List.Forall₂ Piece ls l)
    (hr : List.Forall₂ Piece rs r) (h : l.length + r.length ≤ 7)
    (hf : (join 0x3A ls ++ [0x3A, 0x3A] ++ join 0x3A rs).length ≤ fuel) :
    parseIpv6 fuel (join 0x3A ls ++ [0x3A, 0x3A] ++ join 0x3A rs) ec =
      .stop (.ipv6 (l ++ List.replicate (8 - l.length - r.length) 0 ++ r), ec) := by
  have hjl := join_length ls (forall₂_ne hl)
  have hjr := join_length rs (forall₂_ne hr)
  simp only [List.length_append, List.length_cons, List.length_nil] at hf
  by_cases hls : ls = []
  · subst hls
    cases hl
    have e : join 0x3A [] ++ [0x3A, 0x3A] ++ join 0x3A rs = 0x3A :: 0x3A :: join 0x3A rs := rfl
    rw [e]
    show ipv6Loop ec fuel (part [0]) [0].length (some 1) (join 0x3A rs) = _
    rw [loop_join ec rs r hr [0] (some 1) fuel (by omega) (by simp at h ⊢; omega)]
    have := finish_compress [] r (by simpa using h) ec
    simp only [List.length_nil, Nat.zero_add, List.nil_append] at this
    simp only [List.length_singleton, List.singleton_append, List.length_nil, List.nil_append, this]
  · have e : join 0x3A ls ++ [0x3A, 0x3A] ++ join 0x3A rs = terminated ls ++ 0x3A :: join 0x3A rs := by
      rw [terminated_join ls hls]; simp
    rw [parse_plain]
    · rw [e]
      obtain ⟨k, rfl⟩ : ∃ k, fuel = k + 1 + ls.length := ⟨fuel - ls.length - 1, by omega⟩
      rw [loop_prefix ec ls l hl [] none _ _ (by simp) (by simp; omega), loop_cons, List.nil_append,
        if_neg (by simp; omega), if_pos rfl]
      dsimp only
      have e1 : part l = part (l ++ [0]) := part_zero l (by omega)
      have e2 : ([] : List Nat).length + l.length + 1 = (l ++ [0]).length := by simp
      rw [e1, e2, loop_join ec rs r hr (l ++ [0]) _ k (by omega) (by simp; omega)]
      have := finish_compress l r h ec
      rw [← this]
      simp
    · intro t ht
      rcases join_head hl [] with h1 | ⟨c, s, h1, h2⟩
      · have := hjl; rw [h1] at this; simp at this; exact hls this
      · rw [h1] at ht; injection ht with h3 _; exact h2 h3

/-! ### Embedded IPv4 addresses -/

theorem pieces_cases {ps : List (List Nat)} {vs : List Nat} (h : Pieces ps vs) :
    List.Forall₂ Piece ps vs ∨ ∃ qs us n, n < 2 ^ 32 ∧ List.Forall₂ Piece qs us ∧ ps = qs ++ [dotted n] ∧ vs.length = us.length + 2 := by
  induction h with
  | nil => exact Or.inl .nil
  | @cons p v ps vs h _ ih =>
    rcases ih with h1 | ⟨qs, us, n, hn, h1, rfl, h3⟩
    · exact Or.inl (.cons h h1)
    · exact Or.inr ⟨p :: qs, v :: us, n, hn, .cons h h1, rfl, by simp [h3]⟩
  | @quad n hn => exact Or.inr ⟨[], [], n, hn, .nil, rfl, rfl⟩

theorem dotted_shape (n : Nat) (h : n < 2 ^ 32) :
    ∃ c p t, dotted n = c :: p ++ 0x2E :: t ∧ isAsciiDigit c = true ∧ (∀ x ∈ c :: p, isAsciiHexDigit x = true) ∧ (c :: p).length ≤ 4 := by
  have h1 : ∀ k < 256, (decimal k).length ≤ 4 := by decide +kernel
  have h2 := h1 (n / 2 ^ 24) (by omega)
  have h3 := decimal_digit (n / 2 ^ 24)
  have h4 := decimal_ne_nil (n / 2 ^ 24)
  have hh : ∀ x < 0x3A, 0x30 ≤ x → isAsciiDigit x = true ∧ isAsciiHexDigit x = true := by decide
  unfold dotted
  rw [join]
  · generalize decimal (n / 2 ^ 24) = d at *
    cases d with
    | nil => exact absurd rfl h4
    | cons c p =>
      refine ⟨c, p, _, rfl, (hh c ?_ ?_).1, fun x hx => (hh x ?_ ?_).2, h2⟩
      · have := h3 c (by simp); omega
      · exact (h3 c (by simp)).1
      · have := h3 x hx; omega
      · exact (h3 x hx).1
  · simp

theorem step_dotted (ec : Ec) (fuel : Nat) (a : List Nat) (i : Nat) (cp : Option Nat) (n : Nat) (h : n < 2 ^ 32) (hi : i ≤ 6) :
    ipv6Loop ec (fuel + 1) a i cp (dotted n) = .ub := by
  obtain ⟨c, p, t, h1, h2, h3, h4⟩ := dotted_shape n h
  have hc : c ≠ 0x3A := by rintro rfl; exact absurd h2 (by decide)
  have hr := readPiece_eq (c :: p) (0x2E :: t) 0 0 h3 (by simpa using h4) (by
      intro c hc; simp at hc; subst hc; decide)
  rw [List.cons_append] at hr
  rw [h1, List.cons_append, loop_cons, if_neg (by omega), if_neg hc, hr]
  dsimp only
  rw [if_pos rfl]
  unfold embeddedIpv4
  rw [if_neg (by simp), if_neg (by omega)]
  dsimp only
  rw [if_neg (by simp [h2])]

theorem loop_dotted (ec : Ec) (fuel : Nat) (ws : List Nat) (cp : Option Nat) {qs : List (List Nat)} {us : List Nat}
    (hq : List.Forall₂ Piece qs us) (n : Nat) (hn : n < 2 ^ 32) (hw : ws.length + us.length ≤ 6) (hf : qs.length < fuel) :
    ipv6Loop ec fuel (part ws) ws.length cp (join 0x3A (qs ++ [dotted n])) = .ub := by
  obtain ⟨k, rfl⟩ : ∃ k, fuel = k + 1 + qs.length := ⟨fuel - qs.length - 1, by omega⟩
  have hd : dotted n ≠ [] := by
    obtain ⟨c, p, t, h1, _⟩ := dotted_shape n hn
    rw [h1]; simp
  rw [join_last, loop_prefix ec qs us hq ws cp _ _ hd (by omega), step_dotted ec k _ _ _ n hn hw]

theorem hex_no_dot {p : List Nat} {v : Nat} (h : Piece p v) : 0x2E ∉ p := by
  intro hm
  exact absurd (((piece_iff p v).mp h).2.1 0x2E hm) (by decide)

theorem join_mem {d : Nat} (ps : List (List Nat)) {c : Nat} (h : c ∈ join d ps) : c = d ∨ ∃ p ∈ ps, c ∈ p := by
  induction ps with
  | nil => simp [join] at h
  | cons p ps ih =>
    cases ps with
    | nil => exact Or.inr ⟨p, by simp, by simpa [join] using h⟩
    | cons q ps =>
      rw [join] at h
      · rcases List.mem_append.mp h with h | h
        · exact Or.inr ⟨p, by simp, h⟩
        · rcases List.mem_cons.mp h with h | h
          · exact Or.inl h
          · rcases ih h with h | ⟨x, hx, h⟩
            · exact Or.inl h
            · exact Or.inr ⟨x, by simp [List.mem_cons.mp hx], h⟩
      · simp

theorem forall₂_no_dot {ps : List (List Nat)} {vs : List Nat} (h : List.Forall₂ Piece ps vs) : 0x2E ∉ join 0x3A ps := by
  intro hm
  rcases join_mem ps hm with h1 | ⟨p, hp, h1⟩
  · omega
  · have : ∃ v, Piece p v := by
      clear hm
      induction h with
      | nil => cases hp
      | cons h _ ih =>
        rcases List.mem_cons.mp hp with rfl | hp
        · exact ⟨_, h⟩
        · exact ih hp
    obtain ⟨v, hv⟩ := this
    exact hex_no_dot hv h1

theorem last_head {qs : List (List Nat)} {us : List Nat} (hq : List.Forall₂ Piece qs us) (n : Nat) (hn : n < 2 ^ 32) (t : List Nat) :
    join 0x3A (qs ++ [dotted n]) ≠ 0x3A :: t := by
  intro h
  cases hq with
  | nil =>
    obtain ⟨c, p, t', h1, h2, _⟩ := dotted_shape n hn
    simp only [List.nil_append, join] at h
    rw [h1] at h
    injection h with h _
    subst h
    exact absurd h2 (by decide)
  | @cons p v ps vs hp hs =>
    obtain ⟨h1, h2, _⟩ := (piece_iff p v).mp hp
    rw [List.cons_append, join_cons_ne _ _ (by simp)] at h
    cases p with
    | nil => exact absurd rfl h1
    | cons c p =>
      injection h with h _
      subst h
      exact absurd (h2 0x3A (by simp)) (by decide)

theorem parse_embedded (fuel : Nat) (s a : List Nat) (ec : Ec) (h : V6 s a) (hd : 0x2E ∈ s) (hf : s.length < fuel) :
    parseIpv6 fuel s ec = .ub := by
  have hlen : ∀ (qs : List (List Nat)) (us : List Nat) (n : Nat), List.Forall₂ Piece qs us → n < 2 ^ 32 →
      qs.length ≤ (join 0x3A (qs ++ [dotted n])).length := by
    intro qs us n hq hn
    have := join_length (qs ++ [dotted n]) (by
      intro p hp
      rcases List.mem_append.mp hp with hp | hp
      · exact forall₂_ne hq p hp
      · obtain rfl := List.mem_singleton.mp hp
        obtain ⟨c, p, t, h1, _⟩ := dotted_shape n hn
        rw [h1]; simp)
    simp only [List.length_append, List.length_singleton] at this
    omega
  cases h with
  | full hp h8 =>
    rcases pieces_cases hp with hp | ⟨qs, us, n, hn, hq, rfl, hl⟩
    · exact absurd hd (forall₂_no_dot hp)
    · rw [parse_plain _ _ _ (last_head hq n hn)]
      exact loop_dotted ec fuel [] none hq n hn (by simp; omega) (by have := hlen qs us n hq hn; omega)
  | @short ls rs l r hl hr h7 =>
    simp only [List.length_append, List.length_cons, List.length_nil] at hf
    rcases pieces_cases hr with hr | ⟨qs, us, n, hn, hq, rfl, h2⟩
    · exfalso
      simp only [List.mem_append, List.mem_cons, List.not_mem_nil, or_false] at hd
      rcases hd with (hd | hd) | hd
      · exact forall₂_no_dot hl hd
      · omega
      · exact forall₂_no_dot hr hd
    · have hjl := join_length ls (forall₂_ne hl)
      have hjr := hlen qs us n hq hn
      by_cases hls : ls = []
      · subst hls
        cases hl
        exact loop_dotted ec fuel [0] (some 1) hq n hn (by simp at h7 ⊢; omega) (by omega)
      · have e : join 0x3A ls ++ [0x3A, 0x3A] ++ join 0x3A (qs ++ [dotted n]) =
            terminated ls ++ 0x3A :: join 0x3A (qs ++ [dotted n]) := by
          rw [terminated_join ls hls]; simp
        rw [parse_plain]
        · rw [e]
          obtain ⟨k, rfl⟩ : ∃ k, fuel = k + 1 + ls.length := ⟨fuel - ls.length - 1, by omega⟩
          rw [loop_prefix ec ls l hl [] none _ _ (by simp) (by simp; omega), loop_cons, List.nil_append,
            if_neg (by simp; omega), if_pos rfl]
          dsimp only
          have e1 : part l = part (l ++ [0]) := part_zero l (by omega)
          have e2 : ([] : List Nat).length + l.length + 1 = (l ++ [0]).length := by simp
          rw [e1, e2]
          exact loop_dotted ec k (l ++ [0]) _ hq n hn (by simp; omega) (by omega)
        · intro t ht
          rcases join_head hl [] with h1 | ⟨c, s, h1, h2⟩
          · have := hjl; rw [h1] at this; simp at this; exact hls this
          · rw [h1] at ht; injection ht with h3 _; exact h2 h3

end Verif.Proof.Host6
