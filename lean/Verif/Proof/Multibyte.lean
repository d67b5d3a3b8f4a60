import Verif.Spec.Multibyte
import Verif.Proof.LegacyRun
/- The decoders of the multi-byte encodings read byte sequences as `Spec.Multibyte` has it. -/
namespace Verif.Proof.Multibyte
open Verif.Model.Coder Verif.Model.Table Verif.Model.Tables Verif.Model.Legacy Verif.Proof.CoderRun Verif.Proof.Utf8Coder
open Verif.Spec Verif.Spec.Multibyte

/-- The decoder follows the scheme: `s1 a` is its state behind the lead `a`, `s2 a t` the state behind the first two of
three bytes. -/
structure Follows (S : Scheme) {σ : Type} (dec : Run σ) (i : σ) (s1 : Nat → σ) (s2 : Nat → Nat → σ) : Prop where
  fin : dec i .eoq = some (.finished, i, [])
  single : ∀ a c, a < 256 → S.single a = some c → dec i (.val a) = some (.points [c], i, [])
  stray : ∀ a, a < 256 → S.single a = none → S.lead a = false → dec i (.val a) = some (.err, i, [])
  lead : ∀ a, a < 256 → S.single a = none → S.lead a = true → dec i (.val a) = some (.cont, s1 a, [])
  cut1 : ∀ a, a < 256 → S.single a = none → S.lead a = true →
    ∃ j, dec (s1 a) .eoq = some (.err, j, []) ∧ dec j .eoq = some (.finished, j, [])
  long : ∀ a t, a < 256 → t < 256 → S.single a = none → S.lead a = true → S.long a t = true →
    dec (s1 a) (.val t) = some (.cont, s2 a t, [])
  cut2 : ∀ a t, a < 256 → t < 256 → S.lead a = true → S.long a t = true →
    ∃ j, dec (s2 a t) .eoq = some (.err, j, []) ∧ dec j .eoq = some (.finished, j, [])
  pair : ∀ a t l, a < 256 → t < 256 → S.single a = none → S.lead a = true → S.long a t = false → S.pair a t = some l →
    dec (s1 a) (.val t) = some (.points l, i, [])
  bad : ∀ a t, a < 256 → t < 256 → S.single a = none → S.lead a = true → S.long a t = false → S.pair a t = none →
    dec (s1 a) (.val t) = some (.err, i, if t ≤ 0x7F then [.val t] else [])
  triple : ∀ a t u l, a < 256 → t < 256 → u < 256 → S.lead a = true → S.long a t = true → S.triple a t u = some l →
    dec (s2 a t) (.val u) = some (.points l, i, [])
  bad3 : ∀ a t u, a < 256 → t < 256 → u < 256 → S.lead a = true → S.long a t = true → S.triple a t u = none →
    dec (s2 a t) (.val u) = some (.err, i, if u ≤ 0x7F then [.val u] else [])

/-- A run from here to the end that reports `o` in at most `n` iterations. -/
def Ran {σ : Type} (dec : Run σ) (i : σ) (q : Queue) (o : List (Option Nat)) (n : Nat) : Prop :=
  ∃ rs j, Whole dec i q rs j [.eoq] ∧ report rs = o ∧ rs.length ≤ n

theorem Ran.step {σ : Type} {dec : Run σ} {i i' : σ} {q q' : Queue} {item : Item} {r : Res} {pre : List Item}
    {o : List (Option Nat)} {n m : Nat} (h : Ran dec i' (pre ++ q') o n) (h1 : read q = some (item, q'))
    (h2 : dec i item = some (r, i', pre)) (h3 : r ≠ .finished) (hm : n + 1 ≤ m) :
    Ran dec i q (report [r] ++ o) m := by
  obtain ⟨rs, j, ⟨st1, q1, it, q2, p, t, a, b, c⟩, e, l⟩ := h
  refine ⟨r :: rs, j, ⟨st1, q1, it, q2, p, .step h1 h2 h3 t, a, b, c⟩, ?_, by simp; omega⟩
  rw [report_cons, e]

theorem Ran.done {σ : Type} {dec : Run σ} {j : σ} (h : dec j .eoq = some (.finished, j, [])) (n : Nat) :
    Ran dec j (qq []) [] n :=
  ⟨[], j, ⟨j, qq [], .eoq, qq [], [], .nil _ _, read_nil, h, rfl⟩, rfl, by simp⟩

theorem report_points (l : List Nat) : report [.points l] = l.map some := by simp [report]
theorem report_err : report [.err] = [none] := rfl
theorem report_cont : report [.cont] = [] := rfl

theorem Follows.reads {S : Scheme} {σ : Type} {dec : Run σ} {i : σ} {s1 : Nat → σ} {s2 : Nat → Nat → σ}
    (F : Follows S dec i s1 s2) : ∀ (n : Nat) (b : List Nat), b.length = n → (∀ x ∈ b, x < 256) →
    Ran dec i (qq b) (reads S b) (2 * b.length) := by
  intro n
  induction n using Nat.strongRecOn with
  | _ n ih =>
  intro b hn hb
  have ih' : ∀ b' : List Nat, b'.length < n → (∀ x ∈ b', x < 256) → Ran dec i (qq b') (Spec.Multibyte.reads S b') (2 * b'.length) :=
    fun b' h1 h2 => ih _ h1 b' rfl h2
  match b, hb, hn with
  | [], _, _ => rw [Spec.Multibyte.reads]; exact Ran.done F.fin _
  | [a], hb, hn =>
    have ha : a < 256 := hb a (by simp)
    rw [Spec.Multibyte.reads]
    cases hs : S.single a with
    | some c =>
      have := (Ran.done F.fin 1).step (read_cons a []) (F.single a c ha hs) (by simp) (Nat.le_refl _)
      simpa [report_points] using this
    | none =>
      cases hl : S.lead a with
      | false =>
        have := (Ran.done F.fin 1).step (read_cons a []) (F.stray a ha hs hl) (by simp [Res.err]) (Nat.le_refl _)
        simpa [report_err] using this
      | true =>
        obtain ⟨j, e1, e2⟩ := F.cut1 a ha hs hl
        have h0 := (Ran.done e2 0).step read_nil e1 (by simp [Res.err]) (Nat.le_refl 1)
        have := h0.step (pre := []) (read_cons a []) (F.lead a ha hs hl) (by simp) (Nat.le_refl 2)
        simpa [report_err, report_cont] using this
  | a :: t :: b, hb, hn =>
    have ha : a < 256 := hb a (by simp)
    have ht : t < 256 := hb t (by simp)
    have hb1 : ∀ x ∈ t :: b, x < 256 := fun x hx => hb x (by simp at hx ⊢; tauto)
    have hb2 : ∀ x ∈ b, x < 256 := fun x hx => hb x (by simp [hx])
    simp only [List.length_cons] at hn
    have r1 := ih' (t :: b) (by simp; omega) hb1
    have r2 := ih' b (by omega) hb2
    rw [Spec.Multibyte.reads.eq_def]
    dsimp only
    cases hs : S.single a with
    | some c =>
      have := r1.step (pre := []) (read_cons a (t :: b)) (F.single a c ha hs) (by simp) (m := 2 * (a :: t :: b).length)
        (by simp only [List.length_cons]; omega)
      simpa [report_points] using this
    | none =>
      dsimp only
      cases hl : S.lead a with
      | false =>
        rw [if_neg (by simp)]
        have := r1.step (pre := []) (read_cons a (t :: b)) (F.stray a ha hs hl) (by simp [Res.err])
          (m := 2 * (a :: t :: b).length) (by simp only [List.length_cons]; omega)
        simpa [report_err] using this
      | true =>
        rw [if_pos rfl]
        have go : ∀ (o : List (Option Nat)) (m : Nat), Ran dec (s1 a) (qq (t :: b)) o m → m + 1 ≤ 2 * (a :: t :: b).length →
            Ran dec i (qq (a :: t :: b)) o (2 * (a :: t :: b).length) := by
          intro o m h hm
          have := h.step (pre := []) (read_cons a (t :: b)) (F.lead a ha hs hl) (by simp) hm
          simpa [report_cont] using this
        cases hL : S.long a t with
        | false =>
          rw [if_neg (by simp)]
          cases hp : S.pair a t with
          | some l =>
            have := r2.step (pre := []) (read_cons t b) (F.pair a t l ha ht hs hl hL hp) (by simp) (Nat.le_refl _)
            rw [report_points] at this
            exact go _ _ this (by simp only [List.length_cons]; omega)
          | none =>
            have hd := F.bad a t ha ht hs hl hL hp
            dsimp only
            by_cases h7 : t ≤ 0x7F
            · rw [if_pos h7] at hd ⊢
              have := r1.step (pre := [.val t]) (q' := qq b) (read_cons t b) hd (by simp [Res.err]) (Nat.le_refl _)
              rw [report_err] at this
              exact go _ _ this (by simp only [List.length_cons]; omega)
            · rw [if_neg h7] at hd ⊢
              have := r2.step (pre := []) (read_cons t b) hd (by simp [Res.err]) (Nat.le_refl _)
              rw [report_err] at this
              exact go _ _ this (by simp only [List.length_cons]; omega)
        | true =>
          rw [if_pos rfl]
          cases b with
          | nil =>
            obtain ⟨j, e1, e2⟩ := F.cut2 a t ha ht hl hL
            have h0 := (Ran.done e2 0).step read_nil e1 (by simp [Res.err]) (Nat.le_refl 1)
            have := h0.step (pre := []) (read_cons t []) (F.long a t ha ht hs hl hL) (by simp) (Nat.le_refl 2)
            exact go _ 2 (by simpa [report_err, report_cont] using this) (by simp)
          | cons u b =>
            have hu : u < 256 := hb2 u (by simp)
            have hb3 : ∀ x ∈ b, x < 256 := fun x hx => hb2 x (by simp [hx])
            simp only [List.length_cons] at hn
            have r3 := ih' b (by omega) hb3
            have go2 : ∀ {o : List (Option Nat)} {m : Nat}, Ran dec (s2 a t) (qq (u :: b)) o m →
                m + 2 ≤ 2 * (a :: t :: u :: b).length → Ran dec i (qq (a :: t :: u :: b)) o (2 * (a :: t :: u :: b).length) := by
              intro o m h hm
              have := h.step (pre := []) (read_cons t (u :: b)) (F.long a t ha ht hs hl hL) (by simp) (Nat.le_refl _)
              rw [report_cont, List.nil_append] at this
              exact go _ _ this (by omega)
            dsimp only
            cases hp : S.triple a t u with
            | some l =>
              have := r3.step (pre := []) (read_cons u b) (F.triple a t u l ha ht hu hl hL hp) (by simp) (Nat.le_refl _)
              rw [report_points] at this
              exact go2 this (by simp only [List.length_cons]; omega)
            | none =>
              have hd := F.bad3 a t u ha ht hu hl hL hp
              dsimp only
              by_cases h7 : u ≤ 0x7F
              · rw [if_pos h7] at hd ⊢
                have := r2.step (pre := [.val u]) (q' := qq b) (read_cons u b) hd (by simp [Res.err]) (Nat.le_refl _)
                rw [report_err] at this
                exact go2 this (by simp only [List.length_cons]; omega)
              · rw [if_neg h7] at hd ⊢
                have := r3.step (pre := []) (read_cons u b) hd (by simp [Res.err]) (Nat.le_refl _)
                rw [report_err] at this
                exact go2 this (by simp only [List.length_cons]; omega)

/-! ### The single decoders -/

theorem kr_follows : Follows (eucKr (codePoint cpEucKr)) eucKrD 0 (fun a => a) (fun _ _ => 0) where
  fin := rfl
  single a c ha h := by
    simp only [eucKr] at h
    split at h
    · cases h
      simp only [eucKrD, Nat.mod_eq_of_lt ha]
      rw [if_neg (by simp), if_pos (by assumption)]
    · cases h
  stray a ha h hl := by
    simp only [eucKr, within] at h hl
    split at h
    · cases h
    · simp only [eucKrD, Nat.mod_eq_of_lt ha]
      rw [if_neg (by simp), if_neg (by assumption), if_neg (by simpa using hl)]
  lead a ha h hl := by
    simp only [eucKr, within] at h hl
    split at h
    · cases h
    · simp only [eucKrD, Nat.mod_eq_of_lt ha]
      rw [if_neg (by simp), if_neg (by assumption), if_pos (by simpa using hl)]
  cut1 a ha h hl := by
    simp only [eucKr, within, decide_eq_true_eq] at hl
    exact ⟨0, by simp only [eucKrD]; rw [if_pos (by omega)], rfl⟩
  long a t _ _ _ _ h := by simp [eucKr] at h
  cut2 a t _ _ _ h := by simp [eucKr] at h
  pair a t l ha ht hs hl hL hp := by
    simp only [eucKr, within, decide_eq_true_eq] at hl hp
    simp only [eucKrD, Nat.mod_eq_of_lt ht]
    rw [if_pos (by omega)]
    by_cases h : 0x41 ≤ t ∧ t ≤ 0xFE
    · simp only [cell, place, within, hl, h, and_self, decide_true, if_true, Option.bind_eq_bind, Option.bind_some,
        Option.pure_def] at hp ⊢
      rw [Nat.mod_eq_of_lt (by omega)]
      cases hc : codePoint cpEucKr ((a - 129) * 190 + (t - 65)) with
      | none => simp [hc] at hp
      | some c => rw [hc] at hp; simp at hp; subst hp; rfl
    · simp [cell, place, within, hl, h] at hp
  bad a t ha ht hs hl hL hp := by
    simp only [eucKr, within, decide_eq_true_eq] at hl hp
    simp only [eucKrD, Nat.mod_eq_of_lt ht]
    rw [if_pos (by omega)]
    by_cases h : 0x41 ≤ t ∧ t ≤ 0xFE
    · simp only [cell, place, within, hl, h, and_self, decide_true, if_true, Option.bind_eq_bind, Option.bind_some,
        Option.pure_def] at hp ⊢
      rw [Nat.mod_eq_of_lt (by omega)]
      cases hc : codePoint cpEucKr ((a - 129) * 190 + (t - 65)) with
      | none => rfl
      | some c => rw [hc] at hp; simp at hp
    · rw [if_neg h]; rfl
  triple a t u l _ _ _ _ h := by simp [eucKr] at h
  bad3 a t u _ _ _ _ h := by simp [eucKr] at h

theorem sjis_cell {a t : Nat} (ha : (0x81 ≤ a ∧ a ≤ 0x9F) ∨ (0xE0 ≤ a ∧ a ≤ 0xFC))
    (ht : (0x40 ≤ t ∧ t ≤ 0x7E) ∨ (0x80 ≤ t ∧ t ≤ 0xFC)) :
    cell 188 (place2 0x81 0x9F 0xE0 0xFC a) (place2 0x40 0x7E 0x80 0xFC t) =
      some (((a - if a < 0xA0 then 0x81 else 0xC1) * 188 + t - if t < 0x7F then 0x40 else 0x41) % 65536) := by
  rcases ha with ha | ha <;> rcases ht with ht | ht
  · rw [if_pos (show a < 0xA0 by omega), if_pos (show t < 0x7F by omega)]
    simp only [cell, place2, within, ha, ht, and_self, decide_true, if_true, Option.bind_eq_bind, Option.bind_some,
      Option.pure_def, Option.some.injEq]
    omega
  · rw [if_pos (show a < 0xA0 by omega), if_neg (show ¬ t < 0x7F by omega)]
    have h1 : ¬ (0x40 ≤ t ∧ t ≤ 0x7E) := by omega
    simp only [cell, place2, within, ha, ht, h1, and_self, decide_true, decide_false, if_true, Bool.false_eq_true, if_false,
      Option.bind_eq_bind, Option.bind_some, Option.pure_def, Option.some.injEq]
    omega
  · rw [if_neg (show ¬ a < 0xA0 by omega), if_pos (show t < 0x7F by omega)]
    have h1 : ¬ (0x81 ≤ a ∧ a ≤ 0x9F) := by omega
    simp only [cell, place2, within, ha, ht, h1, and_self, decide_true, decide_false, if_true, Bool.false_eq_true, if_false,
      Option.bind_eq_bind, Option.bind_some, Option.pure_def, Option.some.injEq]
    omega
  · rw [if_neg (show ¬ a < 0xA0 by omega), if_neg (show ¬ t < 0x7F by omega)]
    have h1 : ¬ (0x81 ≤ a ∧ a ≤ 0x9F) := by omega
    have h2 : ¬ (0x40 ≤ t ∧ t ≤ 0x7E) := by omega
    simp only [cell, place2, within, ha, ht, h1, h2, and_self, decide_true, decide_false, if_true, Bool.false_eq_true,
      if_false, Option.bind_eq_bind, Option.bind_some, Option.pure_def, Option.some.injEq]
    omega

theorem sjis_no_cell {t : Nat} (r : Option Nat) (ht : ¬ ((0x40 ≤ t ∧ t ≤ 0x7E) ∨ (0x80 ≤ t ∧ t ≤ 0xFC))) :
    cell 188 r (place2 0x40 0x7E 0x80 0xFC t) = none := by
  have h1 : ¬ (0x40 ≤ t ∧ t ≤ 0x7E) := by omega
  have h2 : ¬ (0x80 ≤ t ∧ t ≤ 0xFC) := by omega
  cases r <;> simp [cell, place2, within, h1, h2]

/-- What the decoder of Shift_JIS does behind a lead. -/
theorem sjis_second {a t : Nat} (ht : t < 256) (ha : (0x81 ≤ a ∧ a ≤ 0x9F) ∨ (0xE0 ≤ a ∧ a ≤ 0xFC)) :
    sjisD a (.val t) = match (shiftJis (codePoint cpJis0208)).pair a t with
      | some l => some (.points l, 0, [])
      | none => some (.err, 0, if t ≤ 0x7F then [.val t] else []) := by
  simp only [sjisD, Nat.mod_eq_of_lt ht, shiftJis]
  rw [if_pos (by omega)]
  by_cases h : (0x40 ≤ t ∧ t ≤ 0x7E) ∨ (0x80 ≤ t ∧ t ≤ 0xFC)
  · rw [if_pos h, sjis_cell ha h]
    have hp : (8836 ≤ ((a - if a < 0xA0 then 0x81 else 0xC1) * 188 + t - if t < 0x7F then 0x40 else 0x41) % 65536 ∧
        ((a - if a < 0xA0 then 0x81 else 0xC1) * 188 + t - if t < 0x7F then 0x40 else 0x41) % 65536 ≤ 10715) ↔
        (0xF0 ≤ a ∧ a ≤ 0xF9) := by
      split <;> split <;> (rw [Nat.mod_eq_of_lt (by omega)]; omega)
    generalize hP : ((a - if a < 0xA0 then 0x81 else 0xC1) * 188 + t - if t < 0x7F then 0x40 else 0x41) % 65536 = P at hp ⊢
    simp only [Option.bind_eq_bind, Option.bind_some, Option.pure_def, within, decide_eq_true_eq]
    by_cases hf : 0xF0 ≤ a ∧ a ≤ 0xF9
    · rw [if_pos hf, if_pos (hp.mpr hf)]
      have := hp.mpr hf
      have e : 0xE000 - 8836 + P = 0xE000 + (P - 47 * 188) := by omega
      rw [e]
    · rw [if_neg hf, if_neg (fun h => hf (hp.mp h))]
      cases codePoint cpJis0208 P <;> rfl
  · rw [if_neg h, sjis_no_cell _ h]
    rfl

theorem sjis_follows : Follows (shiftJis (codePoint cpJis0208)) sjisD 0 (fun a => a) (fun _ _ => 0) where
  fin := rfl
  single a c ha h := by
    simp only [shiftJis, within, decide_eq_true_eq] at h
    simp only [sjisD, Nat.mod_eq_of_lt ha]
    rw [if_neg (by simp)]
    split at h
    · cases h
      rw [if_pos (by omega)]
    · split at h
      · have e : 0xFF61 - 0xA1 + a = c := by
          have := Option.some.inj h
          omega
        rw [if_neg (by omega), if_pos (by assumption), e]
      · cases h
  stray a ha h hl := by
    simp only [shiftJis, within, decide_eq_true_eq, Bool.or_eq_false_iff, decide_eq_false_iff_not] at h hl
    simp only [sjisD, Nat.mod_eq_of_lt ha]
    rw [if_neg (by simp)]
    split at h
    · cases h
    · split at h
      · cases h
      · rw [if_neg (by omega), if_neg (by omega), if_neg (by omega)]
  lead a ha h hl := by
    simp only [shiftJis, within, decide_eq_true_eq, Bool.or_eq_true] at h hl
    simp only [sjisD, Nat.mod_eq_of_lt ha]
    rw [if_neg (by simp), if_neg (by omega), if_neg (by omega), if_pos hl]
  cut1 a ha h hl := by
    simp only [shiftJis, within, decide_eq_true_eq, Bool.or_eq_true] at hl
    exact ⟨0, by simp only [sjisD]; rw [if_pos (by omega)], rfl⟩
  long a t _ _ _ _ h := by simp [shiftJis] at h
  cut2 a t _ _ _ h := by simp [shiftJis] at h
  pair a t l ha ht hs hl hL hp := by
    simp only [shiftJis, within, decide_eq_true_eq, Bool.or_eq_true] at hl
    rw [sjis_second ht hl, hp]
  bad a t ha ht hs hl hL hp := by
    simp only [shiftJis, within, decide_eq_true_eq, Bool.or_eq_true] at hl
    rw [sjis_second ht hl, hp]
  triple a t u l _ _ _ _ h := by simp [shiftJis] at h
  bad3 a t u _ _ _ _ h := by simp [shiftJis] at h

theorem jp_cell {ix : Nat → Option Nat} {a t : Nat} (ha : 0xA1 ≤ a ∧ a ≤ 0xFE) :
    (do let p ← cell 94 (place 0xA1 0xFE a) (place 0xA1 0xFE t); pure [← ix p]) =
      (if (0xA1 ≤ a ∧ a ≤ 0xFE) ∧ 0xA1 ≤ t ∧ t ≤ 0xFE then ix (((a - 0xA1) * 94 + t - 0xA1) % 65536) else none).map
        fun c => [c] := by
  by_cases h : 0xA1 ≤ t ∧ t ≤ 0xFE
  · rw [if_pos ⟨ha, h⟩]
    have e : ((a - 0xA1) * 94 + t - 0xA1) % 65536 = (a - 0xA1) * 94 + (t - 0xA1) := by omega
    rw [e]
    simp only [cell, place, within, ha, h, and_self, decide_true, if_true, Option.bind_eq_bind, Option.bind_some,
      Option.pure_def]
    cases ix ((a - 0xA1) * 94 + (t - 0xA1)) <;> rfl
  · rw [if_neg (fun g => h g.2)]
    simp [cell, place, within, ha, h]

theorem jp_no_cell {ix : Nat → Option Nat} {a t : Nat} (ha : ¬ (0xA1 ≤ a ∧ a ≤ 0xFE)) :
    (do let p ← cell 94 (place 0xA1 0xFE a) (place 0xA1 0xFE t); pure [← ix p]) = none := by
  simp [cell, place, within, ha]

theorem jp_second {a t : Nat} (ht : t < 256) (ha : a = 0x8E ∨ a = 0x8F ∨ (0xA1 ≤ a ∧ a ≤ 0xFE))
    (hl : ¬ (a = 0x8F ∧ 0xA1 ≤ t ∧ t ≤ 0xFE)) :
    eucJpD ⟨false, a⟩ (.val t) = match (eucJp (codePoint cpJis0208) (codePoint cpJis0212)).pair a t with
      | some l => some (.points l, EucJpD.init, [])
      | none => some (.err, EucJpD.init, if t ≤ 0x7F then [.val t] else []) := by
  simp only [eucJpD, Nat.mod_eq_of_lt ht, eucJp]
  by_cases h8 : a = 0x8E
  · subst h8
    rw [if_pos rfl]
    by_cases h : 0xA1 ≤ t ∧ t ≤ 0xDF
    · rw [if_pos ⟨rfl, h⟩]
      have e : 0xFF61 - 0xA1 + t = 0xFF61 + (t - 0xA1) := by omega
      simp only [place, within, h, and_self, decide_true, if_true, Option.map_some, e]
      rfl
    · rw [if_neg (fun g => h g.2), if_neg (by omega), if_pos (by omega), if_neg (by omega)]
      simp [place, within, h, EucJpD.init]
  · rw [if_neg (fun g => h8 g.1), if_neg hl, if_pos (by omega), if_neg h8]
    by_cases hr : 0xA1 ≤ a ∧ a ≤ 0xFE
    · rw [jp_cell hr]
      simp only [Bool.false_eq_true, if_false]
      generalize (if (0xA1 ≤ a ∧ a ≤ 0xFE) ∧ 0xA1 ≤ t ∧ t ≤ 0xFE then
        codePoint cpJis0208 (((a - 0xA1) * 94 + t - 0xA1) % 65536) else none) = x
      cases x <;> rfl
    · rw [jp_no_cell hr, if_neg (fun g => hr g.1)]
      rfl

theorem jp_third {a t u : Nat} (hu : u < 256) (ht : 0xA1 ≤ t ∧ t ≤ 0xFE) :
    eucJpD ⟨true, t⟩ (.val u) = match (eucJp (codePoint cpJis0208) (codePoint cpJis0212)).triple a t u with
      | some l => some (.points l, EucJpD.init, [])
      | none => some (.err, EucJpD.init, if u ≤ 0x7F then [.val u] else []) := by
  simp only [eucJpD, Nat.mod_eq_of_lt hu, eucJp]
  rw [if_neg (by omega), if_neg (by omega), if_pos (by omega), jp_cell ht]
  simp only [if_true]
  generalize (if (0xA1 ≤ t ∧ t ≤ 0xFE) ∧ 0xA1 ≤ u ∧ u ≤ 0xFE then
    codePoint cpJis0212 (((t - 0xA1) * 94 + u - 0xA1) % 65536) else none) = x
  cases x <;> rfl

theorem jp_follows : Follows (eucJp (codePoint cpJis0208) (codePoint cpJis0212)) eucJpD EucJpD.init
    (fun a => ⟨false, a⟩) (fun _ t => ⟨true, t⟩) where
  fin := rfl
  single a c ha h := by
    simp only [eucJp] at h
    split at h
    · cases h
      simp only [eucJpD, EucJpD.init, Nat.mod_eq_of_lt ha]
      rw [if_neg (by simp), if_neg (by simp), if_neg (by simp), if_pos (by assumption)]
    · cases h
  stray a ha h hl := by
    simp only [eucJp, within, Bool.or_eq_false_iff, decide_eq_false_iff_not, beq_eq_false_iff_ne] at h hl
    split at h
    · cases h
    · simp only [eucJpD, EucJpD.init, Nat.mod_eq_of_lt ha]
      rw [if_neg (by simp), if_neg (by simp), if_neg (by simp), if_neg (by assumption), if_neg (by omega)]
  lead a ha h hl := by
    simp only [eucJp, within, Bool.or_eq_true, decide_eq_true_eq, beq_iff_eq] at h hl
    simp only [eucJpD, EucJpD.init, Nat.mod_eq_of_lt ha]
    rw [if_neg (by simp), if_neg (by simp), if_neg (by simp), if_neg (by omega), if_pos (by omega)]
  cut1 a ha h hl := by
    simp only [eucJp, within, Bool.or_eq_true, decide_eq_true_eq, beq_iff_eq] at hl
    exact ⟨⟨false, 0⟩, by simp only [eucJpD]; rw [if_pos (by omega)], rfl⟩
  long a t ha ht hs hl hL := by
    simp only [eucJp, within, Bool.and_eq_true, decide_eq_true_eq, beq_iff_eq] at hL
    simp only [eucJpD, Nat.mod_eq_of_lt ht]
    rw [if_neg (by omega), if_pos (by omega)]
  cut2 a t ha ht hl hL := by
    simp only [eucJp, within, Bool.and_eq_true, decide_eq_true_eq, beq_iff_eq] at hL
    exact ⟨⟨true, 0⟩, by simp only [eucJpD]; rw [if_pos (by omega)], rfl⟩
  pair a t l ha ht hs hl hL hp := by
    simp only [eucJp, within, Bool.or_eq_true, decide_eq_true_eq, beq_iff_eq] at hl
    simp only [eucJp, within, Bool.and_eq_false_iff, decide_eq_false_iff_not, beq_eq_false_iff_ne] at hL
    rw [jp_second ht (by omega) (by omega), hp]
  bad a t ha ht hs hl hL hp := by
    simp only [eucJp, within, Bool.or_eq_true, decide_eq_true_eq, beq_iff_eq] at hl
    simp only [eucJp, within, Bool.and_eq_false_iff, decide_eq_false_iff_not, beq_eq_false_iff_ne] at hL
    rw [jp_second ht (by omega) (by omega), hp]
  triple a t u l ha ht hu hl hL hp := by
    simp only [eucJp, within, Bool.and_eq_true, decide_eq_true_eq, beq_iff_eq] at hL
    rw [jp_third (a := a) hu hL.2, hp]
  bad3 a t u ha ht hu hl hL hp := by
    simp only [eucJp, within, Bool.and_eq_true, decide_eq_true_eq, beq_iff_eq] at hL
    rw [jp_third (a := a) hu hL.2, hp]

/-- Big5 as the library reads it: no trail byte above 7E. -/
def big5Low (index : Nat → Option Nat) : Scheme :=
  { big5 index with pair := fun a t => if t ≤ 0x7E then (big5 index).pair a t else none }

theorem big5_second {a t : Nat} (ht : t < 256) (ha : 0x81 ≤ a ∧ a ≤ 0xFE) :
    big5D a (.val t) = match (big5Low (codePoint cpBig5)).pair a t with
      | some l => some (.points l, 0, [])
      | none => some (.err, 0, if t ≤ 0x7F then [.val t] else []) := by
  simp only [big5D, Nat.mod_eq_of_lt ht, big5Low, big5]
  rw [if_pos (by omega)]
  by_cases h : 0x40 ≤ t ∧ t ≤ 0x7E
  · rw [if_pos h, if_pos h.2, if_pos (show t < 0x7F by omega)]
    have e : ((a - 0x81) * 157 + (t - 0x40)) % 65536 = (a - 0x81) * 157 + (t - 0x40) := by omega
    have hc : cell 157 (place 0x81 0xFE a) (place2 0x40 0x7E 0xA1 0xFE t) = some ((a - 0x81) * 157 + (t - 0x40)) := by
      simp only [cell, place, place2, within, ha, h, and_self, decide_true, if_true, Option.bind_eq_bind, Option.bind_some,
        Option.pure_def]
    rw [e, hc]
    by_cases h1 : a = 0x88 ∧ t = 0x62
    · obtain ⟨rfl, rfl⟩ := h1; rfl
    by_cases h2 : a = 0x88 ∧ t = 0x64
    · obtain ⟨rfl, rfl⟩ := h2; rfl
    rw [if_neg h1, if_neg h2, if_neg (show ¬ (a = 0x88 ∧ t = 0xA3) by omega), if_neg (show ¬ (a = 0x88 ∧ t = 0xA5) by omega),
      if_neg (by omega), if_neg (by omega), if_neg (by omega), if_neg (by omega)]
    simp only [Option.bind_eq_bind, Option.bind_some, Option.pure_def]
    cases codePoint cpBig5 ((a - 0x81) * 157 + (t - 0x40)) <;> rfl
  · rw [if_neg h]
    by_cases h7 : t ≤ 0x7E
    · have h1 : ¬ (0xA1 ≤ t ∧ t ≤ 0xFE) := by omega
      rw [if_pos h7, if_neg (show ¬ (a = 0x88 ∧ t = 0x62) by omega), if_neg (show ¬ (a = 0x88 ∧ t = 0x64) by omega),
        if_neg (show ¬ (a = 0x88 ∧ t = 0xA3) by omega), if_neg (show ¬ (a = 0x88 ∧ t = 0xA5) by omega)]
      simp [cell, place, place2, within, h, h1, ha]
    · rw [if_neg h7]

theorem big5_follows : Follows (big5Low (codePoint cpBig5)) big5D 0 (fun a => a) (fun _ _ => 0) where
  fin := rfl
  single a c ha h := by
    simp only [big5Low, big5] at h
    split at h
    · cases h
      simp only [big5D, Nat.mod_eq_of_lt ha]
      rw [if_neg (by simp), if_pos (by assumption)]
    · cases h
  stray a ha h hl := by
    simp only [big5Low, big5, within] at h hl
    split at h
    · cases h
    · simp only [big5D, Nat.mod_eq_of_lt ha]
      rw [if_neg (by simp), if_neg (by assumption), if_neg (by simpa using hl)]
  lead a ha h hl := by
    simp only [big5Low, big5, within] at h hl
    split at h
    · cases h
    · simp only [big5D, Nat.mod_eq_of_lt ha]
      rw [if_neg (by simp), if_neg (by assumption), if_pos (by simpa using hl)]
  cut1 a ha h hl := by
    simp only [big5Low, big5, within, decide_eq_true_eq] at hl
    exact ⟨0, by simp only [big5D]; rw [if_pos (by omega)], rfl⟩
  long a t _ _ _ _ h := by simp [big5Low, big5] at h
  cut2 a t _ _ _ h := by simp [big5Low, big5] at h
  pair a t l ha ht hs hl hL hp := by
    simp only [big5Low, big5, within, decide_eq_true_eq] at hl
    rw [big5_second ht hl, hp]
  bad a t ha ht hs hl hL hp := by
    simp only [big5Low, big5, within, decide_eq_true_eq] at hl
    rw [big5_second ht hl, hp]
  triple a t u l _ _ _ _ h := by simp [big5Low, big5] at h
  bad3 a t u _ _ _ _ h := by simp [big5Low, big5] at h

/-- Where no two bytes above 7F meet, the trails above 7E do not matter. -/
theorem big5_low (ix : Nat → Option Nat) : ∀ (n : Nat) (b : List Nat), b.length = n →
    (b.IsChain fun x y => x ≤ 0x7F ∨ y ≤ 0x7F) → Spec.Multibyte.reads (big5 ix) b = Spec.Multibyte.reads (big5Low ix) b := by
  intro n
  induction n using Nat.strongRecOn with
  | _ n ih =>
  intro b hn hb
  match b, hn, hb with
  | [], _, _ => simp [Spec.Multibyte.reads]
  | [a], _, _ => simp only [Spec.Multibyte.reads]; rfl
  | a :: t :: b, hn, hb =>
    simp only [List.length_cons] at hn
    rw [List.isChain_cons_cons] at hb
    have r1 := ih _ (by simp; omega) (t :: b) rfl hb.2
    have hb2 : b.IsChain fun x y => x ≤ 0x7F ∨ y ≤ 0x7F := by
      cases b with
      | nil => exact .nil
      | cons u b => exact (List.isChain_cons_cons.mp hb.2).2
    have r2 := ih _ (by omega) b rfl hb2
    rw [Spec.Multibyte.reads.eq_def (big5 ix), Spec.Multibyte.reads.eq_def (big5Low ix)]
    dsimp only
    rw [r1, r2]
    have e1 : (big5Low ix).single = (big5 ix).single := rfl
    have e2 : (big5Low ix).lead = (big5 ix).lead := rfl
    rw [e1, e2]
    cases hs : (big5 ix).single a with
    | some c => rfl
    | none =>
      have ha : ¬ a ≤ 0x7F := by
        intro h
        simp [big5, h] at hs
      have ht : t ≤ 0x7F := hb.1.resolve_left ha
      have e3 : (big5Low ix).long a t = false := rfl
      have e4 : (big5 ix).long a t = false := rfl
      have e5 : (big5Low ix).pair a t = (big5 ix).pair a t := by
        show (if t ≤ 0x7E then (big5 ix).pair a t else none) = _
        split
        · rfl
        · have : t = 0x7F := by omega
          subst this
          simp only [big5, cell, place2, within]
          cases place 0x81 0xFE a <;> simp
      rw [e3, e4, e5]
      simp only [Bool.false_eq_true, if_false]

end Verif.Proof.Multibyte
