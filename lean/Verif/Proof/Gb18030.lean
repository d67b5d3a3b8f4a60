import Verif.Spec.Gb18030
import Verif.Proof.Multibyte
import Verif.Proof.GbRanges
import Verif.Proof.DecodePure
import Verif.Proof.Stream
/- The gb18030 decoder reads byte sequences as `Spec.Gb18030` has it, up to the first code point above U+10000. -/
namespace Verif.Proof.Gb18030
open Verif.Model.Coder Verif.Model.Table Verif.Model.Tables Verif.Model.Legacy Verif.Proof.CoderRun Verif.Proof.Utf8Coder
open Verif.Spec Verif.Spec.Multibyte Verif.Spec.Gb18030 Verif.Proof.Multibyte
open Verif.Proof.Stream

/-! ### The ranges -/

theorem rangeOf_last {k : Nat} : ∀ (l : List (Nat × Nat)) (prev : Option (Nat × Nat)), l.Pairwise (fun a b => a.1 < b.1) →
    ∀ e, rangeOf k prev l = some e → ((l.filter fun e => decide (e.1 ≤ k)).getLast?).or prev = some e := by
  intro l
  induction l with
  | nil => intro prev _ e h; simp [rangeOf] at h
  | cons x l ih =>
    intro prev hs e h
    rw [List.pairwise_cons] at hs
    rw [rangeOf] at h
    split at h
    · rename_i hlt
      have := ih (some x) hs.2 e h
      rw [List.filter_cons_of_pos (by simp; omega), List.getLast?_cons]
      cases hg : (l.filter fun e => decide (e.1 ≤ k)).getLast? with
      | none => rw [hg] at this; simpa using this
      | some y => rw [hg] at this; simpa using this
    · have hnil : (l.filter fun e => decide (e.1 ≤ k)) = [] := by
        rw [List.filter_eq_nil_iff]
        intro y hy
        have := hs.1 y hy
        simp; omega
      split at h
      · cases h
        rw [List.filter_cons_of_pos (by simp; omega), hnil]
        rfl
      · rw [List.filter_cons_of_neg (by simp; omega), hnil, h]
        rfl

theorem sorted_ranges : cpRanges.Pairwise (fun a b => a.1 < b.1) := by decide +kernel
theorem top_ranges : ∀ e ∈ cpRanges, e.1 ≤ 39419 → e.2 + (39419 - e.1) ≤ 0xFFFF := by decide +kernel
theorem high_ranges : ∀ e ∈ cpRanges, 39419 < e.1 → e = (189000, 0x10000) := by decide +kernel
theorem last_ranges : cpRanges.getLast? = some (189000, 0x10000) := by decide +kernel

theorem ranged_eq {p : Nat} (h : ¬ (189000 < p ∧ p ≤ 1237575)) : rangesCodePoint p = some (ranged cpRanges p) ∧
    ∀ c, ranged cpRanges p = some c → c ≤ 0x10000 := by
  have hd := DecodePure.ranges_defined h
  unfold rangesCodePoint at hd ⊢
  unfold ranged
  by_cases h1 : (39419 < p ∧ p < 189000) ∨ 1237575 < p
  · rw [if_pos h1, if_pos h1]; simp
  · rw [if_neg h1] at hd ⊢
    rw [if_neg h1]
    by_cases h2 : p = 7457
    · rw [if_pos h2, if_pos h2]; simp
    · rw [if_neg h2] at hd ⊢
      rw [if_neg h2]
      cases hr : rangeOf p none cpRanges with
      | none => rw [hr] at hd; simp at hd
      | some e =>
        have hl := rangeOf_last cpRanges none sorted_ranges e hr
        rw [Option.or_none] at hl
        have hm := List.mem_of_getLast? hl
        rw [List.mem_filter] at hm
        have hle : e.1 ≤ p := by simpa using hm.2
        have hb : e.2 + (p - e.1) ≤ 0x10000 := by
          by_cases h3 : e.1 ≤ 39419
          · have := top_ranges e hm.1 h3
            by_cases h4 : p ≤ 39419
            · omega
            · have hp : p = 189000 := by omega
              subst hp
              exfalso
              have : (189000, 0x10000) ∈ cpRanges.filter fun e => decide (e.1 ≤ 189000) := by
                rw [List.mem_filter]; exact ⟨DecodePure.has_key, rfl⟩
              have hf : (cpRanges.filter fun e => decide (e.1 ≤ 189000)) = cpRanges := by
                rw [List.filter_eq_self]
                intro x hx
                have := DecodePure.last_key x hx
                simpa using this
              rw [hf, last_ranges] at hl
              cases hl
              omega
          · have := high_ranges e hm.1 (by omega)
            subst this
            have : p = 189000 := by omega
            subst this
            omega
        rw [hl]
        obtain ⟨q, o⟩ := e
        dsimp only at hb ⊢
        rw [Nat.mod_eq_of_lt (by omega)]
        refine ⟨rfl, ?_⟩
        intro c hc
        simp only [Option.map_some, Option.some.injEq] at hc
        omega

theorem ranged_beyond {p : Nat} (h : 189000 < p) (h2 : p ≤ 1237575) : ∃ c, 0x10000 < c ∧ ranged cpRanges p = some c := by
  refine ⟨0x10000 + (p - 189000), by omega, ?_⟩
  unfold ranged
  rw [if_neg (by omega), if_neg (by omega)]
  have hf : (cpRanges.filter fun e => decide (e.1 ≤ p)) = cpRanges := by
    rw [List.filter_eq_self]
    intro x hx
    have := DecodePure.last_key x hx
    simp; omega
  rw [hf, last_ranges]
  rfl

theorem table_low {p c : Nat} (h : codePoint cpGb18030 p = some c) : c ≤ 0xFFFF := by
  obtain ⟨p', hp⟩ := Verif.Proof.Tables.covers_gb p c h
  have := GbRanges.pointer_bmp hp
  omega

/-! ### The decoder -/

/-- A code point that the decoder knows. -/
def Low (o : List (Option Nat)) : Prop := ∀ c, some c ∈ o → c ≤ 0x10000

/-- The run goes to the end, or fails at the first code point above U+10000. -/
def Got {σ : Type} (dec : Run σ) (i : σ) (b : List Nat) (o : List (Option Nat)) (n : Nat) : Prop :=
  (Ran dec i (qq b) o n ∧ Low o) ∨
  ∃ rs c o2, Fails dec i b rs ∧ rs.length ≤ n ∧ 0x10000 < c ∧ o = report rs ++ some c :: o2 ∧ Low (report rs)

theorem Got.step {σ : Type} {dec : Run σ} {i i' : σ} {x : Nat} {b pv : List Nat} {r : Res}
    {o : List (Option Nat)} {n m : Nat} (h : Got dec i' (pv ++ b) o n)
    (h2 : dec i (.val x) = some (r, i', pv.map .val)) (h3 : r ≠ .finished) (hm : n + 1 ≤ m) (hr : Low (report [r])) :
    Got dec i (x :: b) (report [r] ++ o) m := by
  rcases h with ⟨h, hl⟩ | ⟨rs, c, o2, t, l, hc, rfl, hl⟩
  · have e : qq (pv ++ b) = pv.map .val ++ qq b := by simp [qq]
    rw [e] at h
    refine Or.inl ⟨h.step (read_cons x b) h2 h3 hm, ?_⟩
    intro c hc
    rcases List.mem_append.mp hc with hc | hc
    · exact hr c hc
    · exact hl c hc
  · refine Or.inr ⟨r :: rs, c, o2, .step h2 h3 t, by simp; omega, hc, ?_, ?_⟩
    · rw [report_cons r rs, List.append_assoc]
    · intro c hc
      rw [report_cons] at hc
      rcases List.mem_append.mp hc with hc | hc
      · exact hr c hc
      · exact hl c hc

theorem low_none : Low [none] := by simp [Low]
theorem low_nil : Low [] := by simp [Low]

/-- Reading a byte without result. -/
theorem Got.cont {i i' : GbD} {x : Nat} {b : List Nat} {o : List (Option Nat)} {n m : Nat} (h : Got gbD i' b o n)
    (h2 : gbD i (.val x) = some (.cont, i', [])) (hm : n + 1 ≤ m) : Got gbD i (x :: b) o m := by
  have := Got.step (pv := []) h h2 (by simp) hm (by simp [Low, report])
  simpa [report_cont] using this

/-- Reading a byte with an error that puts bytes back. -/
theorem Got.err {i : GbD} {x : Nat} {b pv : List Nat} {o : List (Option Nat)} {n m : Nat}
    (h : Got gbD GbD.init (pv ++ b) o n)
    (h2 : gbD i (.val x) = some (.err, GbD.init, pv.map .val)) (hm : n + 1 ≤ m) : Got gbD i (x :: b) (none :: o) m := by
  have := h.step h2 (by simp [Res.err]) hm (by rw [report_err]; exact low_none)
  simpa [report_err] using this

theorem Got.point {i : GbD} {x c : Nat} {b : List Nat} {o : List (Option Nat)} {n m : Nat}
    (h : Got gbD GbD.init b o n) (hc : c ≤ 0x10000)
    (h2 : gbD i (.val x) = some (.points [c], GbD.init, [])) (hm : n + 1 ≤ m) : Got gbD i (x :: b) (some c :: o) m := by
  have := Got.step (pv := []) h h2 (by simp) hm (by simp [Low, report]; exact hc)
  simpa [report_points] using this

theorem Got.cut {i : GbD} (h : gbD i .eoq = some (.err, GbD.init, [])) (n : Nat) (hn : 1 ≤ n) :
    Got gbD i [] [none] n := by
  refine Or.inl ⟨?_, low_none⟩
  have := (Ran.done (show gbD GbD.init .eoq = some (.finished, GbD.init, []) from rfl) 0).step (pre := []) read_nil h
    (by simp [Res.err]) hn
  simpa [report_err] using this

/-- A failing run as a trace. -/
theorem fails_trace {σ : Type} {run : Run σ} {st : σ} {b : List Nat} {rs : List Res} (h : Fails run st b rs) :
    ∃ st1 v b', Trace run st (qq b) rs st1 (qq (v :: b')) ∧ run st1 (.val v) = none := by
  induction h with
  | here h => exact ⟨_, _, _, .nil _ _, h⟩
  | @step st st' v b pv r rs h1 h2 _ ih =>
    obtain ⟨st1, w, b', t, e⟩ := ih
    refine ⟨st1, w, b', .step (read_cons v b) h1 h2 ?_, e⟩
    have e : qq (pv ++ b) = pv.map .val ++ qq b := by simp [qq]
    rwa [← e]

/-- A failing run that no error stops fails. -/
theorem fails_ub {σ : Type} {run : Run σ} {mode : Mode} {st : σ} {b : List Nat} {rs : List Res} (h : Fails run st b rs)
    (hm : mode ≠ .fatal ∨ ∀ r ∈ rs, ∀ cp, r ≠ .error cp) (fuel : Nat) (hf : rs.length < fuel) (o : List Nat) (c : Bool) :
    processQueue false run mode fuel st (qq b) (outAt o c) = .ub := by
  obtain ⟨st1, v, b', t, e⟩ := fails_trace h
  obtain ⟨k, rfl⟩ : ∃ k, fuel = rs.length + (k + 1) := ⟨fuel - rs.length - 1, by omega⟩
  rw [processQueue_trace t hm, processQueue, read_cons]
  simp [processItem, e]

/-- What the decoder does with the second of two bytes. -/
theorem gb_second {a b : Nat} (ha : 0x81 ≤ a ∧ a ≤ 0xFE) (hb : b < 256) (h : ¬ (0x30 ≤ b ∧ b ≤ 0x39)) :
    gbD ⟨a, 0, 0⟩ (.val b) =
      match (cell 190 (place 0x81 0xFE a) (place2 0x40 0x7E 0x80 0xFE b)).bind (codePoint cpGb18030) with
      | some cp => some (.points [cp], GbD.init, [])
      | none => some (.err, GbD.init, if b ≤ 0x7F then [.val b] else []) := by
  simp only [gbD, Nat.mod_eq_of_lt hb]
  rw [if_neg (by simp), if_neg (by simp), if_pos (by omega), if_neg h]
  have e : (if (0x40 ≤ b ∧ b ≤ 0x7E) ∨ (0x80 ≤ b ∧ b ≤ 0xFE) then
      some ((a - 0x81) * 190 + (b - if b < 0x7F then 0x40 else 0x41)) else none) =
      cell 190 (place 0x81 0xFE a) (place2 0x40 0x7E 0x80 0xFE b) := by
    by_cases h1 : 0x40 ≤ b ∧ b ≤ 0x7E
    · rw [if_pos (Or.inl h1), if_pos (by omega)]
      simp [cell, place, place2, within, ha, h1]
    · by_cases h2 : 0x80 ≤ b ∧ b ≤ 0xFE
      · rw [if_pos (Or.inr h2), if_neg (by omega)]
        simp only [cell, place, place2, within, ha, h1, h2, and_self, decide_true, decide_false, if_true, Bool.false_eq_true,
          if_false, Option.bind_eq_bind, Option.bind_some, Option.pure_def, Option.some.injEq]
        omega
      · rw [if_neg (by omega)]
        simp [cell, place, place2, within, ha, h1, h2]
  rw [e]
  rfl

theorem gb_reads : ∀ (n : Nat) (b : List Nat), b.length = n → (∀ x ∈ b, x < 256) →
    Got gbD GbD.init b (gbReads (codePoint cpGb18030) cpRanges b) (4 * b.length) := by
  intro n
  induction n using Nat.strongRecOn with
  | _ n ih =>
  intro l hn hb
  have ih' : ∀ b' : List Nat, b'.length < n → (∀ x ∈ b', x < 256) →
      Got gbD GbD.init b' (gbReads (codePoint cpGb18030) cpRanges b') (4 * b'.length) :=
    fun b' h1 h2 => ih _ h1 b' rfl h2
  rw [gbReads.eq_def]
  cases l with
  | nil => exact Or.inl ⟨Ran.done rfl _, low_nil⟩
  | cons a r =>
    have ha : a < 256 := hb a (by simp)
    have hr : ∀ x ∈ r, x < 256 := fun x hx => hb x (by simp [hx])
    simp only [List.length_cons] at hn ⊢
    have g0 := ih' r (by omega) hr
    by_cases h1 : a ≤ 0x7F
    · rw [if_pos h1]
      refine g0.point (by omega) ?_ (by omega)
      simp only [gbD, GbD.init, Nat.mod_eq_of_lt ha]
      rw [if_neg (by simp), if_neg (by simp), if_neg (by simp), if_pos h1]
    rw [if_neg h1]
    by_cases h2 : a = 0x80
    · rw [if_pos h2]
      refine g0.point (by omega) ?_ (by omega)
      subst h2; rfl
    rw [if_neg h2]
    by_cases h3 : a = 0xFF
    · rw [if_pos h3]
      refine Got.err (pv := []) g0 ?_ (by omega)
      subst h3; rfl
    rw [if_neg h3]
    have haL : 0x81 ≤ a ∧ a ≤ 0xFE := by omega
    have ka : gbD GbD.init (.val a) = some (.cont, ⟨a, 0, 0⟩, []) := by
      simp only [gbD, GbD.init, Nat.mod_eq_of_lt ha]
      rw [if_neg (by simp), if_neg (by simp), if_neg (by simp), if_neg h1, if_neg h2, if_pos haL]
    cases r with
    | nil =>
      refine Got.cont (Got.cut ?_ 1 (by omega)) ka (by simp)
      simp only [gbD]
      rw [if_neg (by omega)]; rfl
    | cons b r1 =>
      have hbb : b < 256 := hr b (by simp)
      have hr1 : ∀ x ∈ r1, x < 256 := fun x hx => hr x (by simp [hx])
      simp only [List.length_cons] at hn g0 ⊢
      have g1 := ih' r1 (by omega) hr1
      simp only [within, decide_eq_true_eq]
      by_cases h4 : 0x30 ≤ b ∧ b ≤ 0x39
      · rw [if_pos h4]
        have kb : gbD ⟨a, 0, 0⟩ (.val b) = some (.cont, ⟨a, b, 0⟩, []) := by
          simp only [gbD, Nat.mod_eq_of_lt hbb]
          rw [if_neg (by simp), if_neg (by simp), if_pos (by omega), if_pos h4]
        cases r1 with
        | nil =>
          refine Got.cont (Got.cont (Got.cut ?_ 1 (by omega)) kb (Nat.le_refl _)) ka (by simp)
          simp only [gbD]
          rw [if_neg (by omega)]; rfl
        | cons c r2 =>
          have hc : c < 256 := hr1 c (by simp)
          have hr2 : ∀ x ∈ r2, x < 256 := fun x hx => hr1 x (by simp [hx])
          simp only [List.length_cons] at hn g0 g1 ⊢
          by_cases h5 : 0x81 ≤ c ∧ c ≤ 0xFE
          · rw [if_pos h5]
            have kc : gbD ⟨a, b, 0⟩ (.val c) = some (.cont, ⟨a, b, c⟩, []) := by
              simp only [gbD, Nat.mod_eq_of_lt hc]
              rw [if_neg (by simp), if_pos (by omega), if_pos h5]
            cases r2 with
            | nil =>
              refine Got.cont (Got.cont (Got.cont (Got.cut ?_ 1 (by omega)) kc (Nat.le_refl _)) kb (Nat.le_refl _)) ka (by simp)
              simp only [gbD]
              rw [if_neg (by omega)]; rfl
            | cons d r3 =>
              have hd : d < 256 := hr2 d (by simp)
              have hr3 : ∀ x ∈ r3, x < 256 := fun x hx => hr2 x (by simp [hx])
              simp only [List.length_cons] at hn g0 g1 ⊢
              have g3 := ih' r3 (by omega) hr3
              by_cases h6 : 0x30 ≤ d ∧ d ≤ 0x39
              · rw [if_pos h6]
                have hp : (a - 0x81) * 12600 + (b - 0x30) * 1260 + (c - 0x81) * 10 + d - 0x30 = pointer4 a b c d := by
                  unfold pointer4; omega
                have kd : gbD ⟨a, b, c⟩ (.val d) = match rangesCodePoint (pointer4 a b c d) with
                    | none => none
                    | some none => some (.err, ⟨0, 0, 0⟩, [])
                    | some (some cp) => some (.points [cp], ⟨0, 0, 0⟩, []) := by
                  simp only [gbD, Nat.mod_eq_of_lt hd]
                  rw [if_pos (by omega), if_neg (by simpa using h6), hp]
                  rfl
                by_cases hB : 189000 < pointer4 a b c d ∧ pointer4 a b c d ≤ 1237575
                · obtain ⟨cp, hcp, e⟩ := ranged_beyond hB.1 hB.2
                  rw [DecodePure.ranges_beyond hB.1 hB.2] at kd
                  rw [e]
                  have : Got gbD ⟨a, b, c⟩ (d :: r3) (some cp :: gbReads (codePoint cpGb18030) cpRanges r3) 0 :=
                    Or.inr ⟨[], cp, _, .here kd, by simp, hcp, rfl, low_nil⟩
                  exact Got.cont (Got.cont (Got.cont this kc (Nat.le_refl _)) kb (Nat.le_refl _)) ka (by omega)
                · obtain ⟨e, hl⟩ := ranged_eq hB
                  rw [e] at kd
                  have : Got gbD ⟨a, b, c⟩ (d :: r3)
                      (ranged cpRanges (pointer4 a b c d) :: gbReads (codePoint cpGb18030) cpRanges r3) (4 * r3.length + 1) := by
                    cases hx : ranged cpRanges (pointer4 a b c d) with
                    | none => rw [hx] at kd; exact Got.err (pv := []) g3 kd (Nat.le_refl _)
                    | some cp => rw [hx] at kd; exact g3.point (hl cp hx) kd (Nat.le_refl _)
                  exact Got.cont (Got.cont (Got.cont this kc (Nat.le_refl _)) kb (Nat.le_refl _)) ka (by omega)
              · rw [if_neg h6]
                have kd : gbD ⟨a, b, c⟩ (.val d) = some (.err, GbD.init, [b, c, d].map .val) := by
                  simp only [gbD, Nat.mod_eq_of_lt hd]
                  rw [if_pos (by omega), if_pos (by simpa using h6), Nat.mod_eq_of_lt hbb, Nat.mod_eq_of_lt hc]
                  rfl
                exact Got.cont (Got.cont (Got.cont (Got.err (pv := [b, c, d]) g0 kd (Nat.le_refl _)) kc (Nat.le_refl _)) kb
                  (Nat.le_refl _)) ka (by omega)
          · rw [if_neg h5]
            have kc : gbD ⟨a, b, 0⟩ (.val c) = some (.err, GbD.init, [b, c].map .val) := by
              simp only [gbD, Nat.mod_eq_of_lt hc]
              rw [if_neg (by simp), if_pos (by omega), if_neg h5, Nat.mod_eq_of_lt hbb]
              rfl
            exact Got.cont (Got.cont (Got.err (pv := [b, c]) g0 kc (Nat.le_refl _)) kb (Nat.le_refl _)) ka (by omega)
      · rw [if_neg h4]
        have kb := gb_second haL hbb h4
        cases hx : (cell 190 (place 0x81 0xFE a) (place2 0x40 0x7E 0x80 0xFE b)).bind (codePoint cpGb18030) with
        | some cp =>
          rw [hx] at kb
          obtain ⟨p, _, hp⟩ := Option.bind_eq_some_iff.mp hx
          have := table_low hp
          exact Got.cont (g1.point (by omega) kb (Nat.le_refl _)) ka (by omega)
        | none =>
          rw [hx] at kb
          dsimp only at kb ⊢
          by_cases h7 : b ≤ 0x7F
          · rw [if_pos h7] at kb ⊢
            exact Got.cont (Got.err (pv := [b]) g0 kb (Nat.le_refl _)) ka (by omega)
          · rw [if_neg h7] at kb ⊢
            exact Got.cont (Got.err (pv := []) g1 kb (Nat.le_refl _)) ka (by omega)

end Verif.Proof.Gb18030
