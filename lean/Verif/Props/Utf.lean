import Verif.Proof.Utf16Coder
/-
Properties C33, C34, C35, C37: the UTF-8 and UTF-16 coders of the WHATWG encoding layer.

`Verif.Spec.Utf8Decodes b o`: decoding the bytes `b` reports `o` (`some c` a code point, `none` an error), written from the
Unicode standard alone. The observable output of a hook is `fromQueue out` (`from_io_queue_convert`).
-/
namespace Verif.Props.Utf
open Verif.Model.Coder Verif.Spec Verif.Proof.CoderRun Verif.Proof.Utf8Report
open Verif.Proof.Utf16Coder (decode_eq lib_decodes lib_utf16s lib_unique utf16s_lt cut Lib)

/-- C33. UTF-8 encoding never fails and produces the UTF-8 encoding form. -/
theorem C33_encode (s : List Nat) (h : ∀ c ∈ s, IsScalar c) (fuel : Nat) (hf : s.length < fuel) :
    ∃ out, utf8Encode fuel (toQueue s) [] = .stop (.finished, [.eoq], out) ∧ fromQueue out = utf8s s :=
  ⟨_, utf8Encode_eq s (fun c hc => by have := h c hc; unfold IsScalar at this; omega) fuel hf, fromQueue_outAt _ _⟩

/-- C33. Decoding (in both error modes) what was encoded gives the string back, without an error; `utf8_decode` drops one
leading U+FEFF. -/
theorem C33_roundtrip (s : List Nat) (h : ∀ c ∈ s, IsScalar c) (n m : Nat) (hn : s.length < n)
    (hm : 2 * (utf8s s).length < m) :
    ∃ q out, utf8Encode n (toQueue s) [] = .stop (.finished, q, out) ∧
      (∃ r, utf8DecodeWithoutBom m (toQueue (fromQueue out)) [] = .stop (.finished, [.eoq], r) ∧ fromQueue r = s) ∧
      (∃ r, utf8DecodeOrFail m (toQueue (fromQueue out)) [] = .stop (.finished, [.eoq], r) ∧ fromQueue r = s) ∧
      (∃ r, utf8Decode m (toQueue (fromQueue out)) [] = .stop (.finished, [.eoq], r) ∧
        fromQueue r = if s.head? = some 0xFEFF then s.tail else s) := by
  obtain ⟨out, h1, h2⟩ := C33_encode s h n hn
  refine ⟨_, out, h1, ?_⟩
  rw [h2]
  have key : ∀ s : List Nat, (∀ c ∈ s, IsScalar c) → 2 * (utf8s s).length < m →
      utf8DecodeWithoutBom m (toQueue (utf8s s)) [] = .stop (.finished, [.eoq], outAt s true) := by
    intro s h hm
    have := withoutBom_eq (utf8s s) (utf8s_byte h) (decodes_utf8s h) m hm
    rwa [points_some] at this
  refine ⟨⟨_, key s h hm, fromQueue_outAt _ _⟩, ?_, ?_⟩
  · refine ⟨_, orFail_ok (utf8s s) (utf8s_byte h) (decodes_utf8s h) (by simp) m hm, ?_⟩
    rw [fromQueue_outAt, points_some]
  · rw [utf8Decode_eq]
    cases s with
    | nil => exact ⟨_, key [] (by simp) hm, rfl⟩
    | cons c s =>
      have e : utf8s (c :: s) = utf8 c ++ utf8s s := by simp [utf8s]
      by_cases hc : c = 0xFEFF
      · subst hc
        rw [if_pos (by rw [e]; exact ⟨_, rfl⟩)]
        have e3 : (utf8s (0xFEFF :: s)).drop 3 = utf8s s := by
          rw [e, show utf8 0xFEFF = [0xEF, 0xBB, 0xBF] by decide]; rfl
        rw [e3]
        refine ⟨_, key s (fun x hx => h x (by simp [hx])) ?_, by rw [fromQueue_outAt]; rfl⟩
        rw [e] at hm; simp only [List.length_append] at hm; omega
      · have hne : ¬ utf8 0xFEFF <+: utf8s (c :: s) := by
          intro hp
          rw [e] at hp
          have := Verif.Proof.Utf8Forms.full_prefix_unique (Verif.Proof.Utf8Forms.full_utf8 (h c (by simp)))
            (Verif.Proof.Utf8Forms.full_utf8 (c := 0xFEFF) (by decide)) ⟨_, rfl⟩ hp
          exact hc (Verif.Proof.Utf8Forms.utf8_inj this)
        rw [if_neg hne]
        exact ⟨_, key _ h hm, by rw [fromQueue_outAt]; simp [hc]⟩

example : ∀ c ∈ [0xFEFF, 0x41, 0x3042, 0x1F600], IsScalar c := by decide
example : utf8Encode 9 (toQueue [0x41, 0x3042]) [] =
    .stop (.finished, [.eoq], [.val 0x41, .val 0xE3, .val 0x81, .val 0x82, .eoq]) := by decide
example : utf8Decode 20 (toQueue [0xEF, 0xBB, 0xBF, 0xE3, 0x81, 0x82]) [] =
    .stop (.finished, [.eoq], [.val 0x3042, .eoq]) := by decide

/-- C34. On every byte string the decoder ends within `2 n + 1` iterations, with exactly one possible report, every code
point it writes is a scalar value, and it reports no error exactly when the bytes are well-formed. -/
theorem C34_decode (b : List Nat) (hb : ∀ x ∈ b, x < 256) :
    ∃ o, Utf8Decodes b o ∧ (∀ o', Utf8Decodes b o' → o' = o) ∧ (∀ c, some c ∈ o → IsScalar c) ∧
      (none ∉ o ↔ ∃ s, (∀ c ∈ s, IsScalar c) ∧ b = utf8s s) ∧
      ∀ fuel, 2 * b.length < fuel →
        ∃ out, utf8DecodeWithoutBom fuel (toQueue b) [] = .stop (.finished, [.eoq], out) ∧ fromQueue out = points o := by
  obtain ⟨rs, s', h1, h2, h3⟩ := decode_spec b hb
  refine ⟨report rs, h1, fun o' h => decodes_unique h h1, decodes_scalars h1, ⟨fun h => ?_, ?_⟩, fun fuel hf =>
    ⟨_, withoutBom_eq b hb h1 fuel hf, fromQueue_outAt _ _⟩⟩
  · obtain ⟨s, a, c, _⟩ := decodes_no_error h1 h
    exact ⟨s, a, c⟩
  · rintro ⟨s, a, rfl⟩
    rw [decodes_unique h1 (decodes_utf8s a)]; simp

/-- C34. `utf8_decode_without_bom_or_fail` ends, accepts exactly the well-formed strings, with their code points, and on
any other string stops at the first error with the code points in front of it. -/
theorem C34_or_fail (b : List Nat) (hb : ∀ x ∈ b, x < 256) (fuel : Nat) (hf : 2 * b.length < fuel) :
    ∃ r q out, utf8DecodeOrFail fuel (toQueue b) [] = .stop (r, q, out) ∧
      (r = .finished ↔ ∃ s, (∀ c ∈ s, IsScalar c) ∧ b = utf8s s) ∧
      (∀ s, (∀ c ∈ s, IsScalar c) → b = utf8s s → fromQueue out = s) ∧
      (∀ o, Utf8Decodes b o → r ≠ .finished → ∃ t, o = (fromQueue out).map some ++ none :: t) := by
  obtain ⟨o, h1, h2, _, h4, _⟩ := C34_decode b hb
  by_cases hn : none ∈ o
  · obtain ⟨cp, q, s, t, e, rfl⟩ := orFail_error b hb h1 hn fuel hf
    refine ⟨_, q, _, e, ⟨fun h => by simp at h, fun h => absurd hn (h4.2 h)⟩, fun s hs e => absurd hn (h4.2 ⟨s, hs, e⟩), ?_⟩
    intro o' ho' _
    refine ⟨t, ?_⟩
    rw [h2 o' ho', fromQueue_outAt]
  · refine ⟨_, _, _, orFail_ok b hb h1 hn fuel hf, ⟨fun _ => h4.1 hn, fun _ => rfl⟩, ?_, fun _ _ h => absurd rfl h⟩
    rintro s hs rfl
    rw [fromQueue_outAt, decodes_unique h1 (decodes_utf8s hs), points_some]

example : ∀ x ∈ [0x41, 0xED, 0xA0, 0x80, 0xF0, 0x9F], x < 256 := by decide
example : utf8DecodeOrFail 20 (toQueue [0x41, 0xC3, 0x28]) [] =
    .stop (.error 0xFFFFFFFF, [.val 0x28, .eoq], [.val 0x41]) := by decide

/-- C34. `utf8_decode` is `utf8_decode_without_bom` behind one optional byte order mark. -/
theorem C34_bom (fuel : Nat) (b : List Nat) : utf8Decode fuel (toQueue b) [] =
    utf8DecodeWithoutBom fuel (toQueue (if utf8 0xFEFF <+: b then b.drop 3 else b)) [] := utf8Decode_eq fuel b

/-- C35, as a user expects it: in the default error mode every error shows as one U+FFFD. -/
def C35_statement : Prop := ∀ b o, (∀ x ∈ b, x < 256) → Utf8Decodes b o → ∀ fuel, 2 * b.length < fuel →
  ∃ out, utf8DecodeWithoutBom fuel (toQueue b) [] = .stop (.finished, [.eoq], out) ∧ fromQueue out = replaced o

/-- The byte 0xFF decodes to nothing. -/
theorem C35_statement_false : ¬ C35_statement := by
  intro h
  obtain ⟨o, h1, _⟩ := C34_decode [0xFF] (by decide)
  obtain ⟨out, e, e2⟩ := h [0xFF] o (by decide) h1 3 (by decide)
  have : utf8DecodeWithoutBom 3 (toQueue [0xFF]) [] = .stop (.finished, [.eoq], [.eoq]) := by decide
  rw [this] at e
  cases e
  have ho : o = [] := by simpa [fromQueue, replaced] using e2.symm
  have nil : ∀ b o, Utf8Decodes b o → o = [] → b = [] := by
    intro b o h e
    cases h with
    | nil => rfl
    | good => simp at e
    | bad => simp at e
  simpa using nil _ _ h1 ho

/-- C35, the part that holds: decoding does not stop at errors, and everything but the errors comes out; the errors leave
no trace. Missing: one U+FFFD for each of them. -/
theorem C35_partial (b : List Nat) (o : List (Option Nat)) (hb : ∀ x ∈ b, x < 256) (ho : Utf8Decodes b o) (fuel : Nat)
    (hf : 2 * b.length < fuel) :
    ∃ out, utf8DecodeWithoutBom fuel (toQueue b) [] = .stop (.finished, [.eoq], out) ∧ fromQueue out = points o :=
  ⟨_, withoutBom_eq b hb ho fuel hf, fromQueue_outAt _ _⟩

/-- C35 for every coder: an error in replacement mode leaves the output as it was. -/
theorem C35_dropped {σ : Type} (run : Run σ) (st st' : σ) (item : Item) (pre : List Item) (cp : Nat) (q out : Queue)
    (h : run st item = some (.error cp, st', pre)) :
    processItem false run .replacement item st q out = some (.cont, st', pre ++ q, out) := by
  simp [processItem, h, prepend]

/-- C35: were the coder recognised as a decoder (`dec = true`), every error would show as one U+FFFD. -/
theorem C35_if_decoder (b : List Nat) (o : List (Option Nat)) (hb : ∀ x ∈ b, x < 256) (ho : Utf8Decodes b o) (fuel : Nat)
    (hf : 2 * b.length < fuel) :
    ∃ st out, processQueue true utf8D .replacement fuel Utf8D.init (toQueue b) [] = .stop (.finished, st, [.eoq], out) ∧
      fromQueue out = replaced o := by
  obtain ⟨rs, s', h1, h2, h3⟩ := decode_spec b hb
  obtain rfl := decodes_unique ho h1
  have := processQueue_whole (dec := true) (mode := .replacement) h2 (Or.inl (by decide)) fuel (by omega) [] false
  refine ⟨s', _, ?_, fromQueue_outAt _ true⟩
  rw [outs_replacement_true] at this
  rw [toQueue_eq]
  exact this

example : utf8D Utf8D.init (.val 0xFF) = some (.error 0xFFFFFFFF, Utf8D.init, []) := by decide
example : processQueue true utf8D .replacement 20 Utf8D.init (toQueue [0x41, 0xE3, 0x81, 0x42, 0xFF]) [] =
    .stop (.finished, Utf8D.init, [.eoq], [.val 0x41, .val 0xFFFD, .val 0x42, .val 0xFFFD, .eoq]) := by decide

/-- C37. Decoding the UTF-16 bytes of a string (either byte order, both error modes) gives the string back. -/
theorem C37_roundtrip (be : Bool) (s : List Nat) (h : ∀ c ∈ s, IsScalar c) (fuel : Nat)
    (hf : 4 * (utf16s s).length < fuel) :
    (∃ st out, processQueue false (utf16D be) .replacement fuel Utf16D.init (toQueue (utf16Bytes be (utf16s s))) [] =
      .stop (.finished, st, [.eoq], out) ∧ fromQueue out = s) ∧
    (∃ st out, processQueue false (utf16D be) .fatal fuel Utf16D.init (toQueue (utf16Bytes be (utf16s s))) [] =
      .stop (.finished, st, [.eoq], out) ∧ fromQueue out = s) := by
  obtain ⟨o, h1, h2⟩ := decode_eq be (utf16s s) (utf16s_lt s h)
  obtain rfl := lib_unique h1 (lib_utf16s s h)
  obtain ⟨⟨st, e⟩, h4⟩ := h2 fuel hf
  obtain ⟨st', e'⟩ := h4 (by simp)
  rw [points_some] at e e'
  exact ⟨⟨_, _, e, fromQueue_outAt _ _⟩, ⟨_, _, e', fromQueue_outAt _ _⟩⟩

example : ∀ c ∈ [0x41, 0x3042, 0x1F600], IsScalar c := by decide

/-- C37, recovery, as a user expects it: an unpaired surrogate is one error and takes nothing with it. -/
def C37_statement : Prop := ∀ (be : Bool) (us : List Nat), (∀ u ∈ us, u < 65536) → ∃ o, Utf16Decodes us o ∧
  ∀ fuel, 4 * us.length < fuel → ∃ st out,
    processQueue false (utf16D be) .replacement fuel Utf16D.init (toQueue (utf16Bytes be us)) [] =
      .stop (.finished, st, [.eoq], out) ∧ fromQueue out = points o

/-- Behind an unpaired lead surrogate, U+3042 comes out as U+0142. -/
theorem C37_statement_false : ¬ C37_statement := by
  intro h
  obtain ⟨o, h1, h2⟩ := h true [0xD800, 0x3042] (by decide)
  obtain ⟨st, out, e, e2⟩ := h2 9 (by decide)
  have : processQueue false (utf16D true) .replacement 9 Utf16D.init (toQueue (utf16Bytes true [0xD800, 0x3042])) [] =
      .stop (.finished, ⟨none, none⟩, [.eoq], [.val 0x142, .eoq]) := by decide
  rw [this] at e
  cases e
  have all : ∀ us o, Utf16Decodes us o → ∀ c, some c ∈ o → c ≠ 0x142 ∨ 0x142 ∈ us := by
    intro us o h
    induction h with
    | nil => simp
    | @good c us o hc _ ih =>
      intro d hd
      rcases List.mem_cons.1 hd with e | e
      · cases e
        by_cases h : c = 0x142
        · exact Or.inr (by subst h; simp [utf16])
        · exact Or.inl h
      · exact (ih d e).imp id (fun h => List.mem_append_right _ h)
    | lead _ _ _ _ ih =>
      intro d hd
      rcases List.mem_cons.1 hd with e | e
      · cases e
      · exact (ih d e).imp id (fun h => List.mem_cons_of_mem _ h)
    | trail _ _ _ ih =>
      intro d hd
      rcases List.mem_cons.1 hd with e | e
      · cases e
      · exact (ih d e).imp id (fun h => List.mem_cons_of_mem _ h)
  have hm : some 0x142 ∈ o := by
    have : 0x142 ∈ points o := by rw [← e2]; simp [fromQueue]
    simpa [points] using this
  rcases all _ _ h1 _ hm with h | h
  · exact h rfl
  · simp at h

/-- C37, the part that holds: the decoder ends and reports as the standard does on every sequence of code units in which
the code unit behind an unpaired lead surrogate, if any, is at most 8 or one of 0x100-0x1FF.
Missing: the other code units behind an unpaired lead surrogate. -/
theorem C37_partial (be : Bool) (us : List Nat) (h : ∀ u ∈ us, u < 65536)
    (hs : ∀ p u v r, us = p ++ u :: v :: r → 0xD800 ≤ u → u ≤ 0xDBFF →
      (0xDC00 ≤ v ∧ v ≤ 0xDFFF) ∨ v ≤ 8 ∨ (256 ≤ v ∧ v ≤ 511)) :
    ∃ o, Utf16Decodes us o ∧ ∀ fuel, 4 * us.length < fuel → ∃ st out,
      processQueue false (utf16D be) .replacement fuel Utf16D.init (toQueue (utf16Bytes be us)) [] =
        .stop (.finished, st, [.eoq], out) ∧ fromQueue out = points o := by
  obtain ⟨o, h1, h2⟩ := decode_eq be us h
  refine ⟨o, lib_decodes h1 hs, fun fuel hf => ?_⟩
  obtain ⟨⟨st, e⟩, _⟩ := h2 fuel hf
  exact ⟨_, _, e, fromQueue_outAt _ _⟩

/-- C37, what does happen: the code unit `v` behind an unpaired lead surrogate is replaced by its low byte, plus 0x100 when
`v` exceeds 8, and decoding goes on behind it. -/
theorem C37_actual (be : Bool) (u v : Nat) (us s : List Nat) (h1 : 0xD800 ≤ u) (h2 : u ≤ 0xDBFF) (hv : v < 65536)
    (h3 : ¬ (0xDC00 ≤ v ∧ v ≤ 0xDFFF)) (hs : ∀ c ∈ s, IsScalar c) (hus : us = utf16s s) (fuel : Nat)
    (hf : 4 * (us.length + 2) < fuel) :
    ∃ st out, processQueue false (utf16D be) .replacement fuel Utf16D.init (toQueue (utf16Bytes be (u :: v :: us))) [] =
      .stop (.finished, st, [.eoq], out) ∧ fromQueue out = ((if v > 8 then 256 else 0) + v % 256) :: s := by
  subst hus
  have hlt : ∀ x ∈ u :: v :: utf16s s, x < 65536 := by
    intro x hx
    simp only [List.mem_cons] at hx
    rcases hx with rfl | rfl | hx
    · omega
    · exact hv
    · exact utf16s_lt s hs x hx
  obtain ⟨o, h4, h5⟩ := decode_eq be _ hlt
  obtain rfl := lib_unique h4 (.lead h1 h2 h3 (lib_utf16s s hs))
  obtain ⟨⟨st, e⟩, _⟩ := h5 fuel (by simpa using hf)
  refine ⟨_, _, e, ?_⟩
  rw [fromQueue_outAt]
  simp [points, cut]

example : ∀ p u v r, [0x41, 0xD83D, 0xDE00, 0xD800, 0x142, 0xDC00] = p ++ u :: v :: r → 0xD800 ≤ u → u ≤ 0xDBFF →
    (0xDC00 ≤ v ∧ v ≤ 0xDFFF) ∨ v ≤ 8 ∨ (256 ≤ v ∧ v ≤ 511) := by
  intro p u v r e h1 h2
  match p, e with
  | [], e => simp at e; omega
  | [_], e => simp at e; omega
  | [_, _], e => simp at e; omega
  | [_, _, _], e => simp at e; omega
  | [_, _, _, _], e => simp at e; omega
  | [_, _, _, _, _], e => simp at e
  | _ :: _ :: _ :: _ :: _ :: _ :: _, e => simp at e

end Verif.Props.Utf
