import Verif.Proof.CoderRun
import Verif.Proof.Utf8Forms
import Verif.Proof.Bits
/- The UTF-8 coders against the Unicode standard. -/
namespace Verif.Proof.Utf8Coder
open Verif.Model.Coder Verif.Spec Verif.Proof.CoderRun Verif.Proof.Utf8Forms

/-- Bytes followed by end-of-queue. -/
def qq (b : List Nat) : Queue := b.map .val ++ [.eoq]

theorem read_cons (a : Nat) (b : List Nat) : read (qq (a :: b)) = some (.val a, qq b) := rfl
theorem read_nil : read (qq []) = some (.eoq, qq []) := rfl
theorem qq_cons (a : Nat) (b : List Nat) : [Item.val a] ++ qq b = qq (a :: b) := rfl

theorem acc_eq (x b : Nat) : (x <<< 6) ||| (b &&& 0x3F) = x * 64 + b % 64 := by
  rw [and_low 6 b 0x3F rfl, ← Nat.shiftLeft_add_eq_or_of_lt (Nat.mod_lt _ (by decide)), Nat.shiftLeft_eq]

/-- States inside a sequence. -/
def st (cp seen needed lo hi : Nat) : Utf8D := ⟨cp, seen, needed, lo, hi⟩

theorem run_ascii {a : Nat} (h : a < 0x80) : utf8D Utf8D.init (.val a) = some (.points [a], Utf8D.init, []) := by
  have e : a % 256 = a := by omega
  simp only [utf8D, Utf8D.init, e]
  rw [if_pos trivial, if_pos (by omega)]

theorem run_lead2 {a : Nat} (h : 0xC2 ≤ a) (h2 : a ≤ 0xDF) :
    utf8D Utf8D.init (.val a) = some (.cont, ⟨a % 32, 0, 1, 0x80, 0xBF⟩, []) := by
  have e : a % 256 = a := by omega
  simp only [utf8D, Utf8D.init, e, and_low 5 a 0x1F rfl]
  rw [if_pos trivial, if_neg (by omega), if_pos (by omega)]

/-- Bounds set by a lead byte. -/
def lo (a : Nat) : Nat := if a = 0xE0 then 0xA0 else if a = 0xF0 then 0x90 else 0x80
def hi (a : Nat) : Nat := if a = 0xED then 0x9F else if a = 0xF4 then 0x8F else 0xBF

theorem run_lead3 {a : Nat} (h : 0xE0 ≤ a) (h2 : a ≤ 0xEF) :
    utf8D Utf8D.init (.val a) = some (.cont, ⟨a % 16, 0, 2, lo a, hi a⟩, []) := by
  have e : a % 256 = a := by omega
  have e1 : lo a = if a = 0xE0 then 0xA0 else 0x80 := by
    unfold lo; rw [if_neg (show ¬ a = 0xF0 by omega)]
  have e2 : hi a = if a = 0xED then 0x9F else 0xBF := by
    unfold hi; rw [if_neg (show ¬ a = 0xF4 by omega)]
  simp only [utf8D, Utf8D.init, e, and_low 4 a 0xF rfl, e1, e2]
  rw [if_pos trivial, if_neg (by omega), if_neg (by omega), if_pos (by omega)]

theorem run_lead4 {a : Nat} (h : 0xF0 ≤ a) (h2 : a ≤ 0xF4) :
    utf8D Utf8D.init (.val a) = some (.cont, ⟨a % 8, 0, 3, lo a, hi a⟩, []) := by
  have e : a % 256 = a := by omega
  have e1 : lo a = if a = 0xF0 then 0x90 else 0x80 := by
    unfold lo; rw [if_neg (show ¬ a = 0xE0 by omega)]
  have e2 : hi a = if a = 0xF4 then 0x8F else 0xBF := by
    unfold hi; rw [if_neg (show ¬ a = 0xED by omega)]
  simp only [utf8D, Utf8D.init, e, and_low 3 a 0x7 rfl, e1, e2]
  rw [if_pos trivial, if_neg (by omega), if_neg (by omega), if_neg (by omega), if_pos (by omega)]

theorem run_badlead {a : Nat} (ha : a < 256) (h : 0x80 ≤ a) (h2 : a < 0xC2 ∨ 0xF4 < a) :
    utf8D Utf8D.init (.val a) = some (.err, Utf8D.init, []) := by
  have e : a % 256 = a := by omega
  simp only [utf8D, Utf8D.init, e]
  rw [if_pos trivial, if_neg (by omega), if_neg (by omega), if_neg (by omega), if_neg (by omega)]

theorem run_eoq (s : Utf8D) (h : s.needed ≠ 0) : utf8D s .eoq = some (.err, { s with needed := 0 }, []) := by
  simp only [utf8D]; rw [if_pos h]

theorem run_out {s : Utf8D} {b : Nat} (hb : b < 256) (hn : s.needed ≠ 0) (h : ¬ (s.lower ≤ b ∧ b ≤ s.upper)) :
    utf8D s (.val b) = some (.err, Utf8D.init, [.val b]) := by
  have e : b % 256 = b := by omega
  simp only [utf8D, e]
  rw [if_neg hn, if_pos h]; rfl

theorem run_more {cp seen needed l u b : Nat} (hb : b < 256) (hn : needed ≠ 0) (h : l ≤ b ∧ b ≤ u)
    (hs : seen + 1 ≠ needed) :
    utf8D ⟨cp, seen, needed, l, u⟩ (.val b) = some (.cont, ⟨cp * 64 + b % 64, seen + 1, needed, 0x80, 0xBF⟩, []) := by
  have e : b % 256 = b := by omega
  simp only [utf8D, e, acc_eq]
  rw [if_neg hn, if_neg (not_not_intro h), if_pos hs]

theorem run_last {cp seen needed l u b : Nat} (hb : b < 256) (hn : needed ≠ 0) (h : l ≤ b ∧ b ≤ u)
    (hs : seen + 1 = needed) :
    utf8D ⟨cp, seen, needed, l, u⟩ (.val b) = some (.points [cp * 64 + b % 64], Utf8D.init, []) := by
  have e : b % 256 = b := by omega
  simp only [utf8D, e, acc_eq]
  rw [if_neg hn, if_neg (not_not_intro h), if_neg (not_not_intro hs)]; rfl

theorem part_prefix {p q : List Nat} (h : Part q) (hp : p <+: q) : Part p := by
  obtain ⟨r, hr, hq⟩ := part_full h
  exact full_part hr (hp.trans hq)

theorem full_part' {q : List Nat} (h : Full q) : Part q := full_part h List.prefix_rfl

theorem maxSub {p b : List Nat} (hp : p <+: b) (hne : p ≠ []) (hlen : p.length = 1 ∨ Part p)
    (hno : ∀ x, p ++ [x] <+: b → ¬ Part (p ++ [x])) (hnf : ∀ q, q <+: p → ¬ Full q) : MaximalSubpart p b := by
  have key : ∀ q, q <+: b → p.length < q.length → ¬ Part q := by
    intro q hq hl hP
    have h1 : p <+: q := List.prefix_of_prefix_length_le hp hq (by omega)
    obtain ⟨t, rfl⟩ := h1
    cases t with
    | nil => simp at hl
    | cons x t =>
      have h2 : p ++ [x] <+: p ++ x :: t := ⟨t, by simp⟩
      exact hno x (h2.trans hq) (part_prefix hP h2)
  refine ⟨hp, hne, ?_, hlen.imp id (fun h => (starts_iff p).2 h), ?_⟩
  · rintro ⟨c, hc, h⟩
    by_cases hl : p.length < (utf8 c).length
    · exact key _ h hl (full_part' (full_utf8 hc))
    · exact hnf _ (List.prefix_of_prefix_length_le h hp (by omega)) (full_utf8 hc)
  · intro q hq hl hs; exact key q hq hl ((starts_iff q).1 hs)

/-- One token: a well-formed sequence or a maximal subpart. -/
def Token (b : List Nat) : Prop :=
  ∃ p rest rs s, b = p ++ rest ∧ p ≠ [] ∧ Trace utf8D Utf8D.init (qq b) rs s (qq rest) ∧ rs.length ≤ p.length + 1 ∧
    s.needed = 0 ∧ (rest ≠ [] → s = Utf8D.init) ∧
    ((∃ c, IsScalar c ∧ p = utf8 c ∧ report rs = [some c]) ∨ (MaximalSubpart p b ∧ report rs = [none]))

theorem sec_iff {a b : Nat} (h : 0xC2 ≤ a) (h2 : a ≤ 0xF4) : Sec a b ↔ (lo a ≤ b ∧ b ≤ hi a) := by
  unfold Sec lo hi
  split <;> split <;> (try split) <;> (try split) <;> omega

theorem nofull1 {a : Nat} (h : 0x80 ≤ a) : ∀ q, q <+: [a] → ¬ Full q := by
  intro q hq hf
  match q, hf with
  | [x], hf =>
    have : x = a := by simpa using hq
    simp only [Full] at hf; omega
  | x :: y :: t, hf => have := hq.length_le; simp at this

theorem nofull2 {a b : Nat} (h : 0xE0 ≤ a) : ∀ q, q <+: [a, b] → ¬ Full q := by
  intro q hq hf
  match q, hf with
  | [x], hf =>
    have : x = a := by simpa using hq
    simp only [Full] at hf; omega
  | [x, y], hf =>
    have : x = a ∧ y = b := by simpa using hq
    simp only [Full] at hf; omega
  | x :: y :: z :: t, hf => have := hq.length_le; simp at this

theorem nofull3 {a b c : Nat} (h : 0xF0 ≤ a) : ∀ q, q <+: [a, b, c] → ¬ Full q := by
  intro q hq hf
  match q, hf with
  | [x], hf =>
    have : x = a := by simpa using hq
    simp only [Full] at hf; omega
  | [x, y], hf =>
    have : x = a ∧ y = b := by simpa using hq
    simp only [Full] at hf; omega
  | [x, y, z], hf =>
    have : x = a ∧ y = b ∧ z = c := by simpa using hq
    simp only [Full] at hf; omega
  | x :: y :: z :: w :: t, hf => have := hq.length_le; simp at this

theorem cons_prefix {x y : Nat} {p b : List Nat} : p ++ [x] <+: p ++ y :: b ↔ x = y := by
  rw [List.prefix_append_right_inj]; simp

theorem token_two {a : Nat} (b : List Nat) (hb : ∀ x ∈ b, x < 256) (h : 0xC2 ≤ a) (h2 : a ≤ 0xDF) :
    Token (a :: b) := by
  have hlo : lo a = 0x80 := by unfold lo; rw [if_neg (by omega), if_neg (by omega)]
  have hhi : hi a = 0xBF := by unfold hi; rw [if_neg (by omega), if_neg (by omega)]
  have hs := @sec_iff a
  rw [hlo, hhi] at hs
  cases b with
  | nil =>
    refine ⟨[a], [], [.cont, .err], _, rfl, by simp, .step (read_cons a []) (run_lead2 h h2) (by decide)
      (.step read_nil (run_eoq _ (Nat.one_ne_zero)) (by decide) (.nil _ _)), by simp, rfl, by simp, Or.inr ⟨?_, rfl⟩⟩
    exact maxSub List.prefix_rfl (by simp) (Or.inl rfl) (fun x hx => by have := hx.length_le; simp at this)
      (nofull1 (by omega))
  | cons c r =>
    by_cases hc : Sec a c
    · refine ⟨[a, c], r, [.cont, .points [_]], _, rfl, by simp, .step (read_cons a _) (run_lead2 h h2) (by decide)
        (.step (read_cons c r) (run_last (hb c (by simp)) (by decide) ((hs (by omega) (by omega)).1 hc) rfl) (by simp)
          (.nil _ _)), by simp, rfl, fun _ => rfl, Or.inl ⟨a % 32 * 64 + c % 64, ?_, ?_, rfl⟩⟩
      · have := (hs h (by omega)).1 hc; simp only [IsScalar]; omega
      · have := (hs h (by omega)).1 hc
        rw [utf8_2 (by omega) (by omega)]; exact list2 (by omega) (by omega)
    · refine ⟨[a], c :: r, [.cont, .err], _, rfl, by simp, .step (read_cons a _) (run_lead2 h h2) (by decide)
        (.step (read_cons c r) (run_out (hb c (by simp)) Nat.one_ne_zero
          (fun x => hc ((hs (by omega) (by omega)).2 x))) (by decide)
          (.nil _ _)), by simp, rfl, fun _ => rfl, Or.inr ⟨?_, rfl⟩⟩
      refine maxSub ⟨c :: r, rfl⟩ (by simp) (Or.inl rfl) (fun x hx => ?_) (nofull1 (by omega))
      obtain rfl := (cons_prefix (p := [a])).1 hx
      exact hc

theorem token_three {a : Nat} (b : List Nat) (hb : ∀ x ∈ b, x < 256) (h : 0xE0 ≤ a) (h2 : a ≤ 0xEF) :
    Token (a :: b) := by
  have hs := fun b => @sec_iff a b (by omega) (by omega)
  cases b with
  | nil =>
    refine ⟨[a], [], [.cont, .err], _, rfl, by simp, .step (read_cons a []) (run_lead3 h h2) (by decide)
      (.step read_nil (run_eoq _ (Nat.succ_ne_zero 1)) (by decide) (.nil _ _)), by simp, rfl, by simp, Or.inr ⟨?_, rfl⟩⟩
    exact maxSub List.prefix_rfl (by simp) (Or.inl rfl) (fun x hx => by have := hx.length_le; simp at this)
      (nofull1 (by omega))
  | cons c r =>
    have hc256 := hb c (by simp)
    by_cases hc : Sec a c
    · cases r with
      | nil =>
        refine ⟨[a, c], [], [.cont, .cont, .err], _, rfl, by simp, .step (read_cons a _) (run_lead3 h h2) (by decide)
          (.step (read_cons c _) (run_more hc256 (by decide) ((hs c).1 hc) (by decide)) (by decide)
          (.step read_nil (run_eoq _ (Nat.succ_ne_zero 1)) (by decide) (.nil _ _))), by simp, rfl, by simp,
          Or.inr ⟨?_, rfl⟩⟩
        exact maxSub List.prefix_rfl (by simp) (Or.inr hc) (fun x hx => by have := hx.length_le; simp at this)
          (nofull2 (by omega))
      | cons d r =>
        have hd256 := hb d (by simp)
        by_cases hd : Cont d
        · refine ⟨[a, c, d], r, [.cont, .cont, .points [_]], _, rfl, by simp,
            .step (read_cons a _) (run_lead3 h h2) (by decide)
            (.step (read_cons c _) (run_more hc256 (by decide) ((hs c).1 hc) (by decide)) (by decide)
            (.step (read_cons d _) (run_last hd256 (by decide) hd rfl) (by simp) (.nil _ _))), by simp, rfl,
            fun _ => rfl, Or.inl ⟨(a % 16 * 64 + c % 64) * 64 + d % 64, ?_, ?_, rfl⟩⟩
          · unfold Sec at hc; unfold Cont at hd; simp only [IsScalar]; omega
          · unfold Sec at hc; unfold Cont at hd
            rw [utf8_3 (by omega) (by omega)]; exact list3 (by omega) (by omega) (by omega)
        · refine ⟨[a, c], d :: r, [.cont, .cont, .err], _, rfl, by simp,
            .step (read_cons a _) (run_lead3 h h2) (by decide)
            (.step (read_cons c _) (run_more hc256 (by decide) ((hs c).1 hc) (by decide)) (by decide)
            (.step (read_cons d _) (run_out hd256 (Nat.succ_ne_zero 1) hd) (by decide) (.nil _ _))), by simp, rfl,
            fun _ => rfl, Or.inr ⟨?_, rfl⟩⟩
          refine maxSub ⟨d :: r, rfl⟩ (by simp) (Or.inr hc) (fun x hx => ?_) (nofull2 (by omega))
          obtain rfl := (cons_prefix (p := [a, c])).1 hx
          exact fun hp => hd hp.2.2
    · refine ⟨[a], c :: r, [.cont, .err], _, rfl, by simp, .step (read_cons a _) (run_lead3 h h2) (by decide)
        (.step (read_cons c r) (run_out hc256 (Nat.succ_ne_zero 1) (fun x => hc ((hs c).2 x))) (by decide)
          (.nil _ _)), by simp, rfl, fun _ => rfl, Or.inr ⟨?_, rfl⟩⟩
      refine maxSub ⟨c :: r, rfl⟩ (by simp) (Or.inl rfl) (fun x hx => ?_) (nofull1 (by omega))
      obtain rfl := (cons_prefix (p := [a])).1 hx
      exact hc

theorem token_four {a : Nat} (b : List Nat) (hb : ∀ x ∈ b, x < 256) (h : 0xF0 ≤ a) (h2 : a ≤ 0xF4) :
    Token (a :: b) := by
  have hs := fun b => @sec_iff a b (by omega) (by omega)
  cases b with
  | nil =>
    refine ⟨[a], [], [.cont, .err], _, rfl, by simp, .step (read_cons a []) (run_lead4 h h2) (by decide)
      (.step read_nil (run_eoq _ (Nat.succ_ne_zero 2)) (by decide) (.nil _ _)), by simp, rfl, by simp, Or.inr ⟨?_, rfl⟩⟩
    exact maxSub List.prefix_rfl (by simp) (Or.inl rfl) (fun x hx => by have := hx.length_le; simp at this)
      (nofull1 (by omega))
  | cons c r =>
    have hc256 := hb c (by simp)
    by_cases hc : Sec a c
    · cases r with
      | nil =>
        refine ⟨[a, c], [], [.cont, .cont, .err], _, rfl, by simp, .step (read_cons a _) (run_lead4 h h2) (by decide)
          (.step (read_cons c _) (run_more hc256 (by decide) ((hs c).1 hc) (by decide)) (by decide)
          (.step read_nil (run_eoq _ (Nat.succ_ne_zero 2)) (by decide) (.nil _ _))), by simp, rfl, by simp,
          Or.inr ⟨?_, rfl⟩⟩
        exact maxSub List.prefix_rfl (by simp) (Or.inr hc) (fun x hx => by have := hx.length_le; simp at this)
          (nofull2 (by omega))
      | cons d r =>
        have hd256 := hb d (by simp)
        by_cases hd : Cont d
        · cases r with
          | nil =>
            refine ⟨[a, c, d], [], [.cont, .cont, .cont, .err], _, rfl, by simp,
              .step (read_cons a _) (run_lead4 h h2) (by decide)
              (.step (read_cons c _) (run_more hc256 (by decide) ((hs c).1 hc) (by decide)) (by decide)
              (.step (read_cons d _) (run_more hd256 (by decide) hd (by decide)) (by decide)
              (.step read_nil (run_eoq _ (Nat.succ_ne_zero 2)) (by decide) (.nil _ _)))), by simp, rfl, by simp,
              Or.inr ⟨?_, rfl⟩⟩
            exact maxSub List.prefix_rfl (by simp) (Or.inr ⟨by omega, hc, hd⟩)
              (fun x hx => by have := hx.length_le; simp at this) (nofull3 (by omega))
          | cons e r =>
            have he256 := hb e (by simp)
            by_cases he : Cont e
            · refine ⟨[a, c, d, e], r, [.cont, .cont, .cont, .points [_]], _, rfl, by simp,
                .step (read_cons a _) (run_lead4 h h2) (by decide)
                (.step (read_cons c _) (run_more hc256 (by decide) ((hs c).1 hc) (by decide)) (by decide)
                (.step (read_cons d _) (run_more hd256 (by decide) hd (by decide)) (by decide)
                (.step (read_cons e _) (run_last he256 (by decide) he rfl) (by simp) (.nil _ _)))), by simp, rfl,
                fun _ => rfl, Or.inl ⟨((a % 8 * 64 + c % 64) * 64 + d % 64) * 64 + e % 64, ?_, ?_, rfl⟩⟩
              · unfold Sec at hc; unfold Cont at hd he; simp only [IsScalar]; omega
              · unfold Sec at hc; unfold Cont at hd he
                rw [utf8_4 (by omega)]; exact list4 (by omega) (by omega) (by omega) (by omega)
            · refine ⟨[a, c, d], e :: r, [.cont, .cont, .cont, .err], _, rfl, by simp,
                .step (read_cons a _) (run_lead4 h h2) (by decide)
                (.step (read_cons c _) (run_more hc256 (by decide) ((hs c).1 hc) (by decide)) (by decide)
                (.step (read_cons d _) (run_more hd256 (by decide) hd (by decide)) (by decide)
                (.step (read_cons e _) (run_out he256 (Nat.succ_ne_zero 2) he) (by decide) (.nil _ _)))), by simp, rfl,
                fun _ => rfl, Or.inr ⟨?_, rfl⟩⟩
              refine maxSub ⟨e :: r, rfl⟩ (by simp) (Or.inr ⟨by omega, hc, hd⟩) (fun x hx => ?_) (nofull3 (by omega))
              obtain rfl := (cons_prefix (p := [a, c, d])).1 hx
              exact fun hp => he hp.2.2.2
        · refine ⟨[a, c], d :: r, [.cont, .cont, .err], _, rfl, by simp,
            .step (read_cons a _) (run_lead4 h h2) (by decide)
            (.step (read_cons c _) (run_more hc256 (by decide) ((hs c).1 hc) (by decide)) (by decide)
            (.step (read_cons d _) (run_out hd256 (Nat.succ_ne_zero 2) hd) (by decide) (.nil _ _))), by simp, rfl,
            fun _ => rfl, Or.inr ⟨?_, rfl⟩⟩
          refine maxSub ⟨d :: r, rfl⟩ (by simp) (Or.inr hc) (fun x hx => ?_) (nofull2 (by omega))
          obtain rfl := (cons_prefix (p := [a, c])).1 hx
          exact fun hp => hd hp.2.2
    · refine ⟨[a], c :: r, [.cont, .err], _, rfl, by simp, .step (read_cons a _) (run_lead4 h h2) (by decide)
        (.step (read_cons c r) (run_out hc256 (Nat.succ_ne_zero 2) (fun x => hc ((hs c).2 x))) (by decide)
          (.nil _ _)), by simp, rfl, fun _ => rfl, Or.inr ⟨?_, rfl⟩⟩
      refine maxSub ⟨c :: r, rfl⟩ (by simp) (Or.inl rfl) (fun x hx => ?_) (nofull1 (by omega))
      obtain rfl := (cons_prefix (p := [a])).1 hx
      exact hc

theorem token {a : Nat} (b : List Nat) (ha : a < 256) (hb : ∀ x ∈ b, x < 256) : Token (a :: b) := by
  by_cases h1 : a < 0x80
  · refine ⟨[a], b, [.points [a]], _, rfl, by simp, .step (read_cons a b) (run_ascii h1) (by simp) (.nil _ _),
      by simp, rfl, fun _ => rfl, Or.inl ⟨a, Or.inl (by omega), (utf8_1 h1).symm, rfl⟩⟩
  · by_cases h2 : a < 0xC2 ∨ 0xF4 < a
    · refine ⟨[a], b, [.err], _, rfl, by simp, .step (read_cons a b) (run_badlead ha (by omega) h2) (by decide)
        (.nil _ _), by simp, rfl, fun _ => rfl, Or.inr ⟨?_, rfl⟩⟩
      refine maxSub ⟨b, rfl⟩ (by simp) (Or.inl rfl) (fun x hx hp => ?_) (nofull1 (by omega))
      have := part_prefix hp (p := [a]) ⟨[x], rfl⟩
      simp only [Part] at this; omega
    · by_cases h3 : a ≤ 0xDF
      · exact token_two b hb (by omega) h3
      · by_cases h4 : a ≤ 0xEF
        · exact token_three b hb (by omega) h4
        · exact token_four b hb (by omega) (by omega)

/-- Decoding every byte string: a complete run with the standard's report, in at most `2 * length` iterations before the
last one. -/
theorem decode_whole : ∀ (n : Nat) (b : List Nat), b.length ≤ n → (∀ x ∈ b, x < 256) →
    ∀ s : Utf8D, s.needed = 0 → (b ≠ [] → s = Utf8D.init) →
    ∃ rs s', Whole utf8D s (qq b) rs s' (qq []) ∧ Utf8Decodes b (report rs) ∧ rs.length ≤ 2 * b.length := by
  intro n
  induction n with
  | zero =>
    intro b hl _ s hs _
    have : b = [] := by cases b with | nil => rfl | cons _ _ => simp at hl
    subst this
    refine ⟨[], s, ⟨s, qq [], .eoq, qq [], [], .nil _ _, read_nil, ?_, rfl⟩, .nil, by simp⟩
    simp only [utf8D]; rw [if_neg (not_not_intro hs)]
  | succ n ih =>
    intro b hl hb s hs hi
    cases b with
    | nil =>
      refine ⟨[], s, ⟨s, qq [], .eoq, qq [], [], .nil _ _, read_nil, ?_, rfl⟩, .nil, by simp⟩
      simp only [utf8D]; rw [if_neg (not_not_intro hs)]
    | cons a b =>
      obtain rfl := hi (by simp)
      obtain ⟨p, rest, rs, s1, e, hne, ht, hlen, hn, hinit, hcase⟩ :=
        token b (hb a (by simp)) (fun x hx => hb x (by simp [hx]))
      have hpl : 0 < p.length := List.length_pos_iff.mpr hne
      have hll : (a :: b).length = p.length + rest.length := by rw [e]; simp
      obtain ⟨rs2, s2, ⟨t1, t2, t3, t4, t5, t6, t7, t8, t9⟩, hd, hl2⟩ := ih rest (by omega)
        (fun x hx => hb x (by rw [e]; simp [hx])) s1 hn hinit
      refine ⟨rs ++ rs2, s2, ⟨t1, t2, t3, t4, t5, ht.append t6, t7, t8, t9⟩, ?_, ?_⟩
      · rw [report_append, e]
        rcases hcase with ⟨c, hc, rfl, hr⟩ | ⟨hm, hr⟩
        · rw [hr]; exact .good hc hd
        · rw [hr]; rw [e] at hm; exact .bad hm hd
      · simp only [List.length_append]; omega

end Verif.Proof.Utf8Coder
