import Verif.Proof.StreamApi
import Verif.Proof.Utf8Report
/-
Properties C36 and C71: `text_decoder`.

`decodeChunks o fuel d cs last` is a user's loop: the chunks `cs` with `stream = true`, then `last` with `stream = false`;
everything returned, or the first exception. `fuel` bounds the iterations within one call; `.more` means the bound was met.
-/
namespace Verif.Props.TextDecoder
open Verif.Model.Coder Verif.Model.Legacy Verif.Model.TextDecoder Verif.Spec Verif.Proof.CoderRun Verif.Proof.Utf8Coder
open Verif.Proof.Stream Verif.Proof.StreamCoders Verif.Proof.StreamApi Verif.Proof.Utf8Report

/-- C36. For every decoder object that can be constructed, every input and every way of cutting it: feeding it in pieces has
the outcome (text, exception or failed assertion) of decoding it in one call, on objects that are new or were flushed; and
all calls end. -/
theorem C36 {name : Option Enc} {fatal ignoreBom : Bool} {o : Options} (ho : construct name fatal ignoreBom = some o)
    (d d' : Fields (decoderOf o.name).σ) (hd : d.doNotFlush = false) (hd' : d'.doNotFlush = false)
    (cs : List (List Nat)) (last : List Nat) :
    ∃ n x, x ≠ .more ∧ ∀ fuel, n ≤ fuel →
      decodeChunks o fuel d cs last = x ∧ decodeChunks o fuel d' [] (cs.flatten ++ last) = x := by
  have he : o.name ≠ .replacement := by
    cases name with
    | none => simp [construct] at ho
    | some e =>
      simp only [construct] at ho
      split at ho
      · cases ho
      · cases ho; assumption
  obtain ⟨inv, W, φ, p, hi⟩ := all o.name he
  obtain ⟨x, hx, n, hn⟩ := outcome_chunks p cs last d _ false hi (Or.inl ⟨hd, rfl, rfl⟩)
  obtain ⟨m, hm⟩ := outcome_last (d := d') (Or.inl ⟨hd', rfl, rfl⟩) hx
  exact ⟨n + m, x, hx.ends, fun fuel hf => ⟨hn fuel (by omega), hm fuel (by omega)⟩⟩

/- A cut inside a character, and inside an escape sequence. -/
example : construct (some .UTF_8) false false = some ⟨.UTF_8, false, false⟩ := rfl
example : decodeChunks ⟨.UTF_8, false, false⟩ 9 ⟨Utf8D.init, [], false, false⟩ [[0xEF], [0xBB, 0xBF, 0xE3], []]
    [0x81, 0x82] = .stop (some [0x3042]) := by decide +kernel
example : decodeChunks ⟨.ISO_2022_JP, true, false⟩ 9 ⟨JpD.init, [], false, false⟩ [[0x1B], [0x28, 0x4A]]
    [0x5C] = .stop (some [0xA5]) := by decide +kernel

/-- The text behind an optional byte order mark. -/
def withoutMark (ignoreBom : Bool) (s : List Nat) : List Nat :=
  if ignoreBom = false ∧ s.head? = some 0xFEFF then s.tail else s

theorem ser_mark (ig : Bool) (s : List Nat) : (ser true ig false s).1 = withoutMark ig s := by
  unfold ser withoutMark
  cases ig with
  | true => simp
  | false =>
    cases s with
    | nil => simp
    | cons v s => simp

/-- C71. A UTF-8 decoder object, fed in pieces: without `fatal` it returns the code points of the report of the bytes, with
`fatal` it returns the text the bytes encode, or throws if they do not encode any; behind an optional byte order mark unless
`ignoreBom`. -/
theorem C71_utf8 (o : Options) (ho : o.name = .UTF_8) (d : Fields (decoderOf o.name).σ) (hd : d.doNotFlush = false) (cs : List (List Nat))
    (last : List Nat) (hb : ∀ x ∈ cs.flatten ++ last, x < 256) :
    ∃ n, ∀ fuel, n ≤ fuel →
      (∀ r, Utf8Decodes (cs.flatten ++ last) r → o.fatal = false →
        decodeChunks o fuel d cs last = .stop (some (withoutMark o.ignoreBom (points r)))) ∧
      (∀ s, (∀ c ∈ s, IsScalar c) → cs.flatten ++ last = utf8s s →
        decodeChunks o fuel d cs last = .stop (some (withoutMark o.ignoreBom s))) ∧
      ((¬ ∃ s, (∀ c ∈ s, IsScalar c) ∧ cs.flatten ++ last = utf8s s) → o.fatal = true →
        decodeChunks o fuel d cs last = .stop none) := by
  obtain ⟨name, fatal, ignoreBom⟩ := o
  dsimp only at ho
  subst ho
  obtain ⟨n, x, _, hn⟩ := C36 (name := some .UTF_8) (fatal := fatal) (ignoreBom := ignoreBom)
    (o := ⟨.UTF_8, fatal, ignoreBom⟩) rfl d d hd hd cs last
  obtain ⟨rs, s', h1, h2, h3⟩ := decode_spec (cs.flatten ++ last) hb
  generalize cs.flatten ++ last = b at h1 h2 h3 hb hn
  have hfin : ∀ fuel, 2 * b.length < fuel → Quiet (modeOf ⟨.UTF_8, fatal, ignoreBom⟩) rs →
      decodeChunks ⟨.UTF_8, fatal, ignoreBom⟩ fuel d [] b = .stop (some (withoutMark ignoreBom (points (report rs)))) := by
    intro fuel hf hq
    have e := processQueue_whole (dec := false) h2 hq fuel (by omega) [] true
    rcases loop_queue (run := utf8D) fuel _ _ _ _ _ _ _ (by simp [qq]) e with ⟨_, e⟩ | ⟨⟨_, e⟩, _⟩
    · rw [decodeChunks, decode_at (o := ⟨.UTF_8, fatal, ignoreBom⟩) (st := Utf8D.init) (seen := false) (Or.inl ⟨hd, rfl, rfl⟩)]
      dsimp only [decoderOf]
      rw [e]
      dsimp only
      rw [serialize_eq]
      dsimp only
      rw [show isUtf .UTF_8 = true from rfl, ser_mark, List.nil_append]
      congr 3
      cases fatal with
      | true => exact outs_fatal _ _
      | false => exact outs_replacement_false _
    · cases e
  have hthrow : ∀ fuel, 2 * b.length < fuel → fatal = true → (∃ r ∈ rs, ∃ cp, r = .error cp) →
      decodeChunks ⟨.UTF_8, fatal, ignoreBom⟩ fuel d [] b = .stop none := by
    intro fuel hf hfa he
    obtain ⟨st1, q1, item, q', pre, h2, _⟩ := h2
    obtain ⟨cp, st', q', o', e, _⟩ := processQueue_trace_fatal (dec := false) h2 he fuel (by omega) [] true
    rcases loop_queue (run := utf8D) fuel _ _ _ _ _ _ _ (by simp [qq]) e with ⟨e, _⟩ | ⟨_, e⟩
    · cases e
    · rw [decodeChunks, decode_at (o := ⟨.UTF_8, fatal, ignoreBom⟩) (st := Utf8D.init) (seen := false) (Or.inl ⟨hd, rfl, rfl⟩)]
      dsimp only [decoderOf]
      rw [show modeOf ⟨.UTF_8, fatal, ignoreBom⟩ = .fatal by simp [modeOf, hfa], e]
  have hok : ∀ s, (∀ c ∈ s, IsScalar c) → b = utf8s s → (∀ r ∈ rs, ∀ cp, r ≠ .error cp) ∧ points (report rs) = s := by
    rintro s hs rfl
    have e := decodes_unique h1 (decodes_utf8s hs)
    refine ⟨fun r hr cp he => ?_, ?_⟩
    · have := (error_iff_report rs).1 ⟨r, hr, cp, he⟩
      rw [e] at this; simp at this
    · rw [e]; simp [points]
  refine ⟨n + (2 * b.length + 1), fun fuel hf => ⟨fun r hr hfa => ?_, fun s hs hbs => ?_, fun hns hfa => ?_⟩⟩
  · rw [(hn fuel (by omega)).1, ← (hn fuel (by omega)).2]
    rw [decodes_unique hr h1, hfin fuel (by omega) (Or.inl (by unfold modeOf; rw [hfa]; decide))]
  · rw [(hn fuel (by omega)).1, ← (hn fuel (by omega)).2]
    obtain ⟨k1, k2⟩ := hok s hs hbs
    rw [hfin fuel (by omega) (Or.inr k1), k2]
  · rw [(hn fuel (by omega)).1, ← (hn fuel (by omega)).2]
    refine hthrow fuel (by omega) hfa ((error_iff_report rs).2 ?_)
    by_contra hno
    obtain ⟨s, a, c, _⟩ := decodes_no_error h1 hno
    exact hns ⟨s, a, c⟩

example : decodeChunks ⟨.UTF_8, true, true⟩ 9 ⟨Utf8D.init, [], false, false⟩ [[0xEF, 0xBB], [0xBF, 0x41]] [0xC3] =
    .stop none := by decide +kernel
example : decodeChunks ⟨.UTF_8, true, true⟩ 9 ⟨Utf8D.init, [], false, false⟩ [[0xEF, 0xBB], [0xBF, 0x41]] [] =
    .stop (some [0xFEFF, 0x41]) := by decide +kernel
example : ∀ x ∈ [[0xEF, 0xBB], [0xBF, 0x41]].flatten ++ [0xC3], x < 256 := by decide

end Verif.Props.TextDecoder
