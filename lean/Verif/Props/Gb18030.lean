import Verif.Proof.Reporting
import Verif.Proof.Gb18030
import Verif.Proof.DecodeSafe
import Verif.Props.DecodeAll
/-
Property C132: what the decoder of gb18030 and GBK makes of arbitrary bytes, and the exact condition of C124 for it.

`Spec.Gb18030` says what a byte sequence says, errors included; the indexes are those of the library.
-/
namespace Verif.Props.Gb18030
open Verif.Model.Coder Verif.Model.Table Verif.Model.Tables Verif.Model.Legacy Verif.Model.TextDecoder
open Verif.Spec Verif.Spec.Gb18030
open Verif.Proof Verif.Proof.CoderRun Verif.Proof.Utf8Coder Verif.Proof.LegacyApi Verif.Proof.Multibyte
open Verif.Proof.Reporting Verif.Proof.Gb18030 Verif.Proof.Stream Verif.Proof.StreamApi Verif.Proof.StreamCoders

/-- What bytes in gb18030 or GBK say. -/
def said (b : List Nat) : List (Option Nat) := gbReads (codePoint cpGb18030) cpRanges b

/-- A code point above U+10000 is among the code points. -/
def Above (o : List (Option Nat)) : Prop := ∃ c, 0x10000 < c ∧ some c ∈ o

/-- C132, as stated: gb18030 and GBK are decoded as they are read. -/
def C132_statement : Prop := ∀ e, e = .gb18030 ∨ e = .GBK → ∀ b : List Nat, (∀ x ∈ b, x < 256) →
  Reports (4 * b.length) e b (said b)

theorem above_iff (o : List (Option Nat)) : ¬ Above o ↔ Low o := by
  unfold Above Low
  constructor
  · intro h c hc
    by_contra hn
    exact h ⟨c, by omega, hc⟩
  · rintro h ⟨c, h1, h2⟩
    have := h c h2
    omega

theorem got {e : Enc} (he : e = .gb18030 ∨ e = .GBK) (b : List Nat) (hb : ∀ x ∈ b, x < 256) :
    Got (decoderOf e).run (decoderOf e).init b (said b) (4 * b.length) := by
  rcases he with rfl | rfl
  · exact gb_reads _ b rfl hb
  · exact gb_reads _ b rfl hb

/-- C132 in the default mode: decoding fails an assertion exactly if the bytes say a code point above U+10000 anywhere, and
otherwise writes what they say. Missing: the code points above U+10000. -/
theorem C132_partial {e : Enc} (he : e = .gb18030 ∨ e = .GBK) (b : List Nat) (hb : ∀ x ∈ b, x < 256) :
    (Above (said b) → FailsOn (4 * b.length) e .replacement b) ∧ (¬ Above (said b) → Writes (4 * b.length) e b (said b)) := by
  rcases got he b hb with ⟨h, hl⟩ | ⟨rs, c, o2, f, l, hc, eo, hl⟩
  · exact ⟨fun h' => absurd hl ((above_iff _).not.mp (not_not.mpr h')), fun _ => (reports_of_ran h).1⟩
  · have ha : Above (said b) := ⟨c, hc, by rw [eo]; simp⟩
    refine ⟨fun _ fuel hf => ?_, fun h => absurd ha h⟩
    unfold runCoder
    rw [toQueue_qq, nil_outAt, fails_ub f (Or.inl (by simp)) fuel (by omega)]

theorem takeWhile_mem {o : List (Option Nat)} {x : Option Nat} (h : x ∈ o.takeWhile Option.isSome) : x ∈ o :=
  List.takeWhile_subset _ h

/-- C132 in mode `fatal`: the same for what the bytes say in front of the first error. -/
theorem C132_fatal_partial {e : Enc} (he : e = .gb18030 ∨ e = .GBK) (b : List Nat) (hb : ∀ x ∈ b, x < 256) :
    (Above ((said b).takeWhile Option.isSome) → FailsOn (4 * b.length) e .fatal b) ∧
    (¬ Above ((said b).takeWhile Option.isSome) → WritesFatal (4 * b.length) e b (said b)) := by
  rcases got he b hb with ⟨h, hl⟩ | ⟨rs, c, o2, f, l, hc, eo, hl⟩
  · refine ⟨?_, fun _ => (reports_of_ran h).2⟩
    rintro ⟨c, h1, h2⟩
    exact absurd hl ((above_iff _).not.mp (not_not.mpr ⟨c, h1, takeWhile_mem h2⟩))
  · by_cases hn : none ∈ report rs
    · obtain ⟨st1, v, b', t, _⟩ := fails_trace f
      constructor
      · rintro ⟨c', h1, h2⟩
        exfalso
        have : c' ≤ 0x10000 := by
          refine hl c' ?_
          have e2 : (said b).takeWhile Option.isSome = (report rs).takeWhile Option.isSome := by
            rw [eo, List.takeWhile_append, if_neg]
            intro hlen
            have hself : (report rs).takeWhile Option.isSome = report rs :=
              (List.takeWhile_prefix _).eq_of_length hlen
            rw [← hself] at hn
            have hall := List.all_takeWhile (p := Option.isSome) (l := report rs)
            rw [List.all_eq_true] at hall
            have := hall _ hn
            cases this
          rw [e2] at h2
          exact takeWhile_mem h2
        omega
      · intro _
        rw [eo]
        exact fatal_stops t l hn _
    · have hne : ∀ r ∈ rs, ∀ cp, r ≠ .error cp := fun r hr cp e => hn ((error_iff_report rs).mp ⟨r, hr, cp, e⟩)
      have hs : ∀ x ∈ report rs, Option.isSome x = true := by
        intro x hx
        cases x with
        | some c => rfl
        | none => exact absurd hx hn
      constructor
      · intro _ fuel hf
        unfold runCoder
        rw [toQueue_qq, nil_outAt, fails_ub f (Or.inr hne) fuel (by omega)]
      · intro h
        refine absurd ⟨c, hc, ?_⟩ h
        rw [eo, List.takeWhile_append_of_pos hs]
        simp

/-- The statement is false: U+1F600 in four bytes fails an assertion. -/
theorem C132_statement_false : ¬ C132_statement := by
  intro h
  obtain ⟨q, out, e1, _⟩ := (h .gb18030 (Or.inl rfl) [0x94, 0x39, 0xFC, 0x36] (by decide)).1 17 (by decide)
  have : runCoder (decoderOf .gb18030) .replacement 17 (toQueue [0x94, 0x39, 0xFC, 0x36]) [] = .ub := by decide +kernel
  rw [this] at e1
  cases e1

/-- C124, exactly for gb18030 and GBK: a `text_decoder` fails an assertion, however the bytes are cut, exactly if the bytes
say a code point above U+10000 (with `fatal`: in front of the first error). -/
theorem C124_gb18030_exact (o : Options) (ho : o.name = .gb18030 ∨ o.name = .GBK) (d : Fields (decoderOf o.name).σ)
    (hd : d.doNotFlush = false) (cs : List (List Nat)) (last : List Nat) (hb : ∀ x ∈ cs.flatten ++ last, x < 256) :
    (∃ n, ∀ fuel, n ≤ fuel → decodeChunks o fuel d cs last = .ub) ↔
      Above (if o.fatal then (said (cs.flatten ++ last)).takeWhile Option.isSome else said (cs.flatten ++ last)) := by
  have he : o.name ≠ .replacement := by rcases ho with h | h <;> rw [h] <;> simp
  have hz : ∀ st : (decoderOf o.name).σ, (decoderOf o.name).run st .eoq ≠ none := by
    obtain ⟨e, f, g⟩ := o
    rcases ho with rfl | rfl
    · exact DecodeSafe.gb_eoq
    · exact DecodeSafe.gb_eoq
  obtain ⟨inv, W, φ, p, hi⟩ := all o.name he
  obtain ⟨x, hx⟩ := outcome_exists (o := o) p _ hi false (cs.flatten ++ last)
  obtain ⟨n, hn⟩   := Verif.Props.DecodeAll.outcome_is he d hd cs last hx
  have hm : modeOf o = if o.fatal then .fatal else .replacement := rfl
  generalize cs.flatten ++ last = w at hb hx
  have hu : x = .ub ↔ Above (if o.fatal then (said w).takeWhile Option.isSome else said w) := by
    have key : FeedUb (decoderOf o.name).run (modeOf o) (decoderOf o.name).init w →
        Above (if o.fatal then (said w).takeWhile Option.isSome else said w) := by
      rintro ⟨rs, f, q⟩
      by_contra ha
      have hub : ∀ fuel, rs.length < fuel → runCoder (decoderOf o.name) (modeOf o) fuel (toQueue w) [] = .ub := by
        intro fuel hf
        unfold runCoder
        rw [toQueue_qq, nil_outAt, fails_ub f q fuel hf]
      cases hfa : o.fatal with
      | false =>
        rw [hm, hfa] at hub
        rw [hfa] at ha
        obtain ⟨q, out, e1, _⟩ := (C132_partial ho w hb).2 ha (4 * w.length + rs.length + 1) (by omega)
        have := hub (4 * w.length + rs.length + 1) (by omega)
        rw [if_neg (by simp), e1] at this
        cases this
      | true =>
        rw [hm, hfa] at hub
        rw [hfa] at ha
        obtain ⟨r, q, out, e1, _⟩ := (C132_fatal_partial ho w hb).2 ha (4 * w.length + rs.length + 1) (by omega)
        have := hub (4 * w.length + rs.length + 1) (by omega)
        rw [if_pos rfl, e1] at this
        cases this
    constructor
    · rintro rfl
      cases hx with
      | endUb f fl =>
        obtain ⟨rs, f, _, _⟩ := f
        exact absurd (DecodeAll.flushes_ub p (fatal := o.fatal) (feeds_inv p f hi) fl) (hz _)
      | ub f => exact key f
    · intro ha
      have hF : FeedUb (decoderOf o.name).run (modeOf o) (decoderOf o.name).init w := by
        rcases got ho w hb with ⟨_, hl⟩ | ⟨rs, c, o2, f, l, hc, eo, hl⟩
        · exfalso
          obtain ⟨c, h1, h2⟩ := ha
          have : c ≤ 0x10000 := by
            refine hl c ?_
            split at h2
            · exact takeWhile_mem h2
            · exact h2
          omega
        · refine ⟨rs, f, ?_⟩
          cases hfa : o.fatal with
          | false => exact Or.inl (by rw [hm, hfa]; simp)
          | true =>
            right
            by_contra hc'
            have hn : none ∈ report rs := by
              refine (error_iff_report rs).mp ?_
              by_contra h
              exact hc' fun r hr cp e => h ⟨r, hr, cp, e⟩
            obtain ⟨st1, v, b', t, _⟩ := fails_trace f
            have hw : WritesFatal (4 * w.length) o.name w (said w) := by rw [eo]; exact fatal_stops t l hn _
            rw [hfa] at ha
            have := (C132_fatal_partial ho w hb).1 ha (4 * w.length + 1) (by omega)
            obtain ⟨r, q, out, e1, _⟩ := hw (4 * w.length + 1) (by omega)
            rw [this] at e1
            cases e1
      obtain ⟨n1, h1⟩ := outcome_last (o := o) (d := ⟨(decoderOf o.name).init, [], false, false⟩) (Or.inl ⟨rfl, rfl, rfl⟩) hx
      obtain ⟨n2, h2⟩ := outcome_last (o := o) (d := ⟨(decoderOf o.name).init, [], false, false⟩) (Or.inl ⟨rfl, rfl, rfl⟩)
        (Outcome.ub (seen := false) hF)
      rw [← h1 (n1 + n2) (by omega), h2 (n1 + n2) (by omega)]
  rw [← hu]
  constructor
  · rintro ⟨m, h⟩
    rw [← hn (n + m) (by omega), h (n + m) (by omega)]
  · rintro rfl
    exact ⟨n, hn⟩

/- Four-byte sequences for U+00E4 and U+1F600, one broken off, a pair for U+4E02. -/
example : ranged cpRanges (pointer4 0x81 0x30 0x8A 0x31) = some 0xE4 ∧ ranged cpRanges (pointer4 0x94 0x39 0xFC 0x36) = some 0x1F600 ∧
    ranged cpRanges (pointer4 0x84 0x31 0xA4 0x39) = some 0xFFFF := by decide +kernel
example : runCoder (decoderOf .gb18030) .replacement 30 (toQueue [0x81, 0x30, 0x8A, 0x31, 0x81, 0x30, 0x81, 0x40, 0x80, 0x81]) [] =
    .stop (.finished, [.eoq], [.val 0xE4, .val 0x30, .val 0x4E02, .val 0x20AC, .eoq]) := by decide +kernel
example : Above (said [0xFF, 0x94, 0x39, 0xFC, 0x36]) ∧ ¬ Above ((said [0xFF, 0x94, 0x39, 0xFC, 0x36]).takeWhile Option.isSome) := by
  have h : ranged cpRanges (pointer4 0x94 0x39 0xFC 0x36) = some 0x1F600 := by decide +kernel
  have e : said [0xFF, 0x94, 0x39, 0xFC, 0x36] = [none, some 0x1F600] := by
    unfold said
    simp [gbReads, Verif.Spec.Multibyte.within, h]
  rw [e]
  exact ⟨⟨0x1F600, by decide, by simp⟩, by simp [Above]⟩

end Verif.Props.Gb18030
