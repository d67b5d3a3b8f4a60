import Verif.Proof.Reporting
/-
Property C131: what the decoders of Shift_JIS, EUC-KR, EUC-JP and Big5 make of arbitrary bytes.

`Reports` speaks of the decoder that the library chooses for an encoding, run by `process_queue`. `Spec.Multibyte` says how each of these encodings writes its characters and what a byte sequence says, errors included; the
indexes are those of the library (`get_index_code_point`).
-/
namespace Verif.Props.Multibyte
open Verif.Model.Coder Verif.Model.Table Verif.Model.Tables Verif.Model.Legacy Verif.Spec Verif.Spec.Multibyte
open Verif.Proof.CoderRun Verif.Proof.Utf8Coder Verif.Proof.LegacyRun Verif.Proof.LegacyApi Verif.Proof.Multibyte
open Verif.Proof.Reporting

/-- C131. Shift_JIS. -/
theorem C131_shift_jis (b : List Nat) (hb : ∀ x ∈ b, x < 256) :
    Reports (2 * b.length) .Shift_JIS b (reads (shiftJis (codePoint cpJis0208)) b) :=
  reports_of_ran (sjis_follows.reads _ b rfl hb)

/-- C131. EUC-KR. -/
theorem C131_euc_kr (b : List Nat) (hb : ∀ x ∈ b, x < 256) : Reports (2 * b.length) .EUC_KR b (reads (eucKr (codePoint cpEucKr)) b) :=
  reports_of_ran (kr_follows.reads _ b rfl hb)

/-- C131. EUC-JP. -/
theorem C131_euc_jp (b : List Nat) (hb : ∀ x ∈ b, x < 256) :
    Reports (2 * b.length) .EUC_JP b (reads (eucJp (codePoint cpJis0208) (codePoint cpJis0212)) b) :=
  reports_of_ran (jp_follows.reads _ b rfl hb)

/-- C131, as stated for Big5. -/
def C131_big5_statement : Prop := ∀ b : List Nat, (∀ x ∈ b, x < 256) → Reports (2 * b.length) .Big5 b (reads (big5 (codePoint cpBig5)) b)

/-- It is false: A1 B1 is U+00A7, but the decoder takes no trail byte above 7E. -/
theorem C131_big5_statement_false : ¬ C131_big5_statement := by
  intro h
  obtain ⟨q, out, e1, e2⟩ := (h [0xA1, 0xB1] (by decide)).1 5 (by decide)
  have : runCoder (decoderOf .Big5) .replacement 5 (toQueue [0xA1, 0xB1]) [] = .stop (.finished, [.eoq], [.eoq]) := rfl
  rw [this] at e1
  cases e1
  have hp : (big5 (codePoint cpBig5)).pair 0xA1 0xB1 = some [0xA7] := by decide +kernel
  have hr : reads (big5 (codePoint cpBig5)) [0xA1, 0xB1] = [some 0xA7] := by
    rw [reads.eq_def]
    have hs : (big5 (codePoint cpBig5)).single 0xA1 = none := rfl
    have hl : (big5 (codePoint cpBig5)).lead 0xA1 = true := rfl
    have hL : (big5 (codePoint cpBig5)).long 0xA1 0xB1 = false := rfl
    dsimp only
    simp only [hs, hl, hL, hp, if_true, Bool.false_eq_true, if_false]
    rw [reads]
    rfl
  rw [hr] at e2
  cases e2

/-- C131 for Big5 where no two bytes above 7F meet. Missing: the other byte sequences, for which it is false in general. -/
theorem C131_big5_partial (b : List Nat) (hb : ∀ x ∈ b, x < 256) (hl : b.IsChain fun x y => x ≤ 0x7F ∨ y ≤ 0x7F) :
    Reports (2 * b.length) .Big5 b (reads (big5 (codePoint cpBig5)) b) := by
  rw [big5_low _ _ b rfl hl]
  exact reports_of_ran (big5_follows.reads _ b rfl hb)

/-- C131. What Big5 does with the others: every pair with a trail byte above 7E is one error that takes both bytes. -/
theorem C131_big5 (b : List Nat) (hb : ∀ x ∈ b, x < 256) :
    Reports (2 * b.length) .Big5 b (reads { big5 (codePoint cpBig5) with
      pair := fun a t => if t ≤ 0x7E then (big5 (codePoint cpBig5)).pair a t else none } b) :=
  reports_of_ran (big5_follows.reads _ b rfl hb)

/- Bytes with characters of one, two and three bytes, a private use character, errors that put a byte back or not, and an
unfinished sequence. -/
example : (shiftJis (codePoint cpJis0208)).pair 0xF0 0x40 = some [0xE000] ∧
    (shiftJis (codePoint cpJis0208)).pair 0xF9 0xFC = some [0xE757] ∧
    (shiftJis (codePoint cpJis0208)).pair 0x93 0xFA = some [0x65E5] ∧ (shiftJis (codePoint cpJis0208)).pair 0x81 0x22 = none := by
  decide +kernel
example : (eucJp (codePoint cpJis0208) (codePoint cpJis0212)).triple 0x8F 0xB0 0xA1 = some [0x4E02] ∧
    (eucJp (codePoint cpJis0208) (codePoint cpJis0212)).pair 0x8E 0xB1 = some [0xFF71] := by decide +kernel
example : runCoder (decoderOf .Shift_JIS) .replacement 15 (toQueue [0x41, 0xF0, 0x40, 0x81, 0x22, 0xB1, 0x81]) [] =
    .stop (.finished, [.eoq], [.val 0x41, .val 0xE000, .val 0x22, .val 0xFF71, .eoq]) := by decide +kernel
example : [0x41, 0xA4, 0x40, 0x20].IsChain fun x y => x ≤ 0x7F ∨ y ≤ 0x7F := by decide

end Verif.Props.Multibyte
