import Verif.Proof.DecodeQueue
/-
Properties C124, C125 and C126: what holds for the decoders of all encodings.

`decodeChunks o fuel d cs last` is a user's loop over a `text_decoder`: the chunks `cs` with `stream = true`, then `last` with
`stream = false`. `.stop (some t)` is the text returned, `.stop none` the exception of `fatal`, `.ub` a failed assertion.
-/
namespace Verif.Props.DecodeAll
open Verif.Model.Coder Verif.Model.Legacy Verif.Model.TextDecoder Verif.Spec Verif.Proof.CoderRun
open Verif.Proof Verif.Proof.Stream Verif.Proof.StreamCoders Verif.Proof.StreamApi

theorem name_of {name : Option Enc} {fatal ignoreBom : Bool} {o : Options} (ho : construct name fatal ignoreBom = some o) :
    o.name ≠ .replacement := by
  cases name with
  | none => simp [construct] at ho
  | some e =>
    simp only [construct] at ho
    split at ho
    · cases ho
    · cases ho; assumption

/-- The outcome of all bytes together is the outcome of the calls. -/
theorem outcome_is {o : Options} (he : o.name ≠ .replacement) (d : Fields (decoderOf o.name).σ) (hd : d.doNotFlush = false)
    (cs : List (List Nat)) (last : List Nat) {x : Ends (Option (List Nat))}
    (hx : Outcome o (decoderOf o.name).init false (cs.flatten ++ last) x) :
    ∃ n, ∀ fuel, n ≤ fuel → decodeChunks o fuel d cs last = x := by
  obtain ⟨inv, W, φ, p, hi⟩ := all o.name he
  obtain ⟨y, hy, n, hn⟩ := outcome_chunks p cs last d _ false hi (Or.inl ⟨hd, rfl, rfl⟩)
  obtain ⟨m, hm⟩ := outcome_last (d := d) (Or.inl ⟨hd, rfl, rfl⟩) hx
  obtain ⟨k, hk⟩ := outcome_last (d := d) (Or.inl ⟨hd, rfl, rfl⟩) hy
  have : x = y := by rw [← hm (m + k) (by omega), hk (m + k) (by omega)]
  exact ⟨n, fun fuel hf => by rw [hn fuel hf, this]⟩

/-! ### C124 -/

/-- C124, as stated: whatever the bytes and however they are cut, decoding ends with a text or the exception of `fatal`. -/
def C124_statement : Prop := ∀ (name : Option Enc) (fatal ignoreBom : Bool) (o : Options),
  construct name fatal ignoreBom = some o → ∀ (d : Fields (decoderOf o.name).σ), d.doNotFlush = false →
  ∀ (cs : List (List Nat)) (last : List Nat), (∀ x ∈ cs.flatten ++ last, x < 256) →
    ∃ n, ∀ fuel, n ≤ fuel → ∃ r, decodeChunks o fuel d cs last = .stop r

/-- C124 for all inputs but those of the two theorems below: bytes in ISO-2022-JP that end inside an escape sequence, and
bytes in gb18030 or GBK with a four-byte sequence for a code point above U+10000. -/
theorem C124_partial {name : Option Enc} {fatal ignoreBom : Bool} {o : Options} (ho : construct name fatal ignoreBom = some o)
    (d : Fields (decoderOf o.name).σ) (hd : d.doNotFlush = false) (cs : List (List Nat)) (last : List Nat)
    (hb : ∀ x ∈ cs.flatten ++ last, x < 256)
    (hjp : o.name = .ISO_2022_JP → ¬ EndsInEscape (cs.flatten ++ last))
    (hgb : o.name = .gb18030 ∨ o.name = .GBK → ¬ HasBeyond (cs.flatten ++ last)) :
    ∃ n, ∀ fuel, n ≤ fuel → ∃ r, decodeChunks o fuel d cs last = .stop r := by
  have he := name_of ho
  obtain ⟨inv, W, φ, p, hi⟩ := all o.name he
  obtain ⟨x, hx, n, hn⟩ := outcome_chunks p cs last d _ false hi (Or.inl ⟨hd, rfl, rfl⟩)
  have hu : x ≠ .ub := by
    rintro rfl
    clear hn n hd d
    obtain ⟨e, fatal', ig'⟩ := o
    dsimp only at *
    by_cases h1 : e = .ISO_2022_JP
    · subst h1
      exact DecodeAll.outcome_safe (o := ⟨.ISO_2022_JP, fatal', ig'⟩) p (DecodeSafe.jp_keeps hb)
        (fun st v _ _ => DecodeSafe.jp_val st v) (DecodeSafe.jp_eoq (hjp rfl)) hi
        (show DecodeSafe.JpJ (cs.flatten ++ last) JpD.init (cs.flatten ++ last) from
          ⟨Or.inl rfl, List.suffix_refl _, fun h => (by cases h), fun h => (by cases h)⟩) hx
    · by_cases h2 : e = .gb18030
      · subst h2
        exact DecodeAll.outcome_safe (o := ⟨.gb18030, fatal', ig'⟩) p (DecodeSafe.gb_keeps hb)
          (DecodeSafe.gb_val hb (hgb (Or.inl rfl))) (fun st _ => DecodeSafe.gb_eoq st) hi
          (Or.inl ⟨rfl, List.suffix_refl _⟩) hx
      · by_cases h3 : e = .GBK
        · subst h3
          exact DecodeAll.outcome_safe (o := ⟨.GBK, fatal', ig'⟩) p (DecodeSafe.gb_keeps hb)
            (DecodeSafe.gb_val hb (hgb (Or.inr rfl))) (fun st _ => DecodeSafe.gb_eoq st) hi
            (Or.inl ⟨rfl, List.suffix_refl _⟩) hx
        · have ht := DecodeSafe.total_all e h3 h2 h1 he
          exact DecodeAll.outcome_safe (o := ⟨e, fatal', ig'⟩) p (J := fun _ _ => True) (fun _ _ _ _ _ _ _ _ => trivial)
            (fun st v _ _ => ht st (.val v)) (fun st _ => ht st .eoq) hi trivial hx
  cases x with
  | ub => exact absurd rfl hu
  | more => exact absurd rfl hx.ends
  | stop r => exact ⟨n, fun fuel hf => ⟨r, hn fuel hf⟩⟩

/- An escape sequence in the middle, and a four-byte sequence for U+FFFF. -/
example : construct (some .ISO_2022_JP) true false = some ⟨.ISO_2022_JP, true, false⟩ := rfl
example : ¬ EndsInEscape ([[0x1B], [0x24]].flatten ++ [0x42, 0x24, 0x22]) := by
  rintro ⟨a, h | h⟩ <;>
    · have := congrArg List.getLast? h
      simp at this
example : ¬ HasBeyond [0x84, 0x31, 0xA4, 0x39] := by
  rintro ⟨a, b1, b2, b3, b4, c, h, hb⟩
  have hl := congrArg List.length h
  simp at hl
  have ha : a = [] := List.length_eq_zero_iff.mp (by omega)
  subst ha
  simp at h
  obtain ⟨rfl, rfl, rfl, rfl, _⟩ := h
  unfold Beyond at hb
  omega
example : decodeChunks ⟨.gb18030, true, false⟩ 9 ⟨GbD.init, [], false, false⟩ [[0x84, 0x31]] [0xA4, 0x39] =
    .stop (some [0xFFFF]) := by decide +kernel

/-- Without `fatal`, decoding ISO-2022-JP runs into a failed assertion exactly when the bytes end in ESC `$` or ESC `(`. -/
theorem C124_iso2022jp (o : Options) (ho : o.name = .ISO_2022_JP) (hf : o.fatal = false) (d : Fields (decoderOf o.name).σ)
    (hd : d.doNotFlush = false) (cs : List (List Nat)) (last : List Nat) (hb : ∀ x ∈ cs.flatten ++ last, x < 256) :
    (∃ n, ∀ fuel, n ≤ fuel → decodeChunks o fuel d cs last = .ub) ↔ EndsInEscape (cs.flatten ++ last) := by
  have hr : construct (some o.name) o.fatal o.ignoreBom = some o := by
    simp only [construct, ho]
    rw [if_neg (by decide)]
    obtain ⟨_, _, _⟩ := o
    dsimp only at ho
    subst ho
    rfl
  constructor
  · rintro ⟨n, hn⟩
    by_contra hE
    obtain ⟨m, hm⟩ := C124_partial hr d hd cs last hb (fun _ => hE) (fun h => by rw [ho] at h; simp at h)
    obtain ⟨r, hr⟩ := hm (n + m) (by omega)
    rw [hn (n + m) (by omega)] at hr
    cases hr
  · rintro ⟨a, hw⟩
    refine outcome_is (name_of hr) d hd cs last ?_
    clear d hd hr
    generalize cs.flatten ++ last = w at hw hb
    obtain ⟨x, hx, rfl⟩ : ∃ x, (x = 0x24 ∨ x = 0x28) ∧ w = a ++ [0x1B, x] := by
      rcases hw with hw | hw
      · exact ⟨_, Or.inl rfl, hw⟩
      · exact ⟨_, Or.inr rfl, hw⟩
    obtain ⟨e, fatal, ig⟩ := o
    dsimp only at ho hf
    subst ho hf
    rcases total jp _ JpD.init (a ++ [0x1B, x]) (Or.inl rfl) (Nat.le_refl _) with ⟨rs, st2, f, _⟩ | ⟨rs, f⟩
    · have hs : st2.state = .esc := by
        rcases (DecodeSafe.jp_ends hx).feeds f (Or.inr (Or.inr ⟨a, rfl⟩)) with h | ⟨h, _⟩ | ⟨c, h⟩
        · exact h.2
        · cases h
        · simp at h
      refine Outcome.endUb (o := ⟨.ISO_2022_JP, false, ig⟩) (t := outs false .replacement rs) (st2 := st2)
        ⟨rs, f, Or.inl (by simp [modeOf]), rfl⟩ ?_
      intro fuel hf o
      obtain ⟨k, rfl⟩ : ∃ k, fuel = k + 1 := ⟨fuel - 1, by omega⟩
      show loop jpD _ false (k + 1) st2 _ _ = .ub
      rw [loop, Verif.Proof.Utf8Coder.read_nil]
      simp [processItem, jpD, hs]
    · exact (DecodeAll.Keeps.fails (J := fun _ _ => True) (fun _ _ _ _ _ _ _ _ => trivial)
        (fun st v _ _ => DecodeSafe.jp_val st v) f trivial).elim

/- Bytes cut off inside an escape sequence. -/
example : EndsInEscape ([[0x41]].flatten ++ [0x1B, 0x28]) := ⟨[0x41], Or.inr rfl⟩
example : decodeChunks ⟨.ISO_2022_JP, false, false⟩ 9 ⟨JpD.init, [], false, false⟩ [[0x41]] [0x1B, 0x28] = .ub := by
  decide +kernel

/-- A four-byte sequence for a code point above U+10000 at the beginning, or behind a byte below 0x30 (a space, a line feed,
most punctuation) without `fatal`, fails an assertion in gb18030 and GBK. -/
theorem C124_gb18030 (o : Options) (ho : o.name = .gb18030 ∨ o.name = .GBK) (d : Fields (decoderOf o.name).σ)
    (hd : d.doNotFlush = false) (cs : List (List Nat)) (last : List Nat) (a : List Nat) (b1 b2 b3 b4 : Nat) (c : List Nat)
    (hw : cs.flatten ++ last = a ++ b1 :: b2 :: b3 :: b4 :: c) (h4 : Beyond b1 b2 b3 b4)
    (ha : a = [] ∨ (o.fatal = false ∧ ∃ a' x, a = a' ++ [x] ∧ x < 0x30)) :
    ∃ n, ∀ fuel, n ≤ fuel → decodeChunks o fuel d cs last = .ub := by
  have he : o.name ≠ .replacement := by rcases ho with h | h <;> rw [h] <;> simp
  refine outcome_is he d hd cs last ?_
  rw [hw]
  clear d hd hw he
  have key : ∀ mode : Mode, (a = [] ∨ (mode ≠ .fatal ∧ ∃ a' x, a = a' ++ [x] ∧ x < 0x30)) →
      FeedUb gbD mode GbD.init (a ++ b1 :: b2 :: b3 :: b4 :: c) := by
    intro mode ha
    rcases ha with rfl | ⟨hm, a', x, rfl, hx⟩
    · exact ⟨_, DecodeSafe.gb_fails h4 c, Or.inr (by simp)⟩
    · rcases total gb _ GbD.init (a' ++ [x]) trivial (Nat.le_refl _) with ⟨rs, st2, f, _⟩ | ⟨rs, f⟩
      · have hs : st2 = ⟨0, 0, 0⟩ := by
          rcases ((DecodeSafe.gb_neutral hx).feeds f ⟨⟨Or.inl rfl, Or.inl rfl⟩, Or.inr ⟨a', rfl⟩⟩).2 with h | ⟨c, h⟩
          · exact h.2
          · simp at h
        subst hs
        exact ⟨_, f.append_fails (DecodeSafe.gb_fails h4 c), Or.inl hm⟩
      · exact ⟨rs, f.append _, Or.inl hm⟩
  obtain ⟨e, fatal, ig⟩ := o
  dsimp only at ho ha
  have hu := key (modeOf ⟨e, fatal, ig⟩) (ha.imp id (fun ⟨h, k⟩ => ⟨by simp [modeOf, h], k⟩))
  rcases ho with rfl | rfl
  · exact .ub hu
  · exact .ub hu

/- U+1F600 behind a line feed. -/
example : Beyond 0x94 0x39 0xFC 0x36 := by unfold Beyond; omega
example : decodeChunks ⟨.gb18030, false, false⟩ 9 ⟨GbD.init, [], false, false⟩ [[0x81, 0x0A, 0x94]] [0x39, 0xFC, 0x36] = .ub := by
  decide +kernel

theorem C124_statement_false : ¬ C124_statement := by
  intro h
  obtain ⟨n, hn⟩ := h (some .gb18030) false false ⟨.gb18030, false, false⟩ rfl ⟨GbD.init, [], false, false⟩ rfl []
    [0x94, 0x39, 0xFC, 0x36] (by decide)
  obtain ⟨m, hm⟩ := C124_gb18030 ⟨.gb18030, false, false⟩ (Or.inl rfl) ⟨GbD.init, [], false, false⟩ rfl []
    [0x94, 0x39, 0xFC, 0x36] [] 0x94 0x39 0xFC 0x36 [] rfl (by unfold Beyond; omega) (Or.inl rfl)
  obtain ⟨r, hr⟩ := hn (n + m) (by omega)
  rw [hm (n + m) (by omega)] at hr
  cases hr

/-! ### C125 -/

/-- C125. Whatever the encoding, the bytes and the chunks, the text returned consists of Unicode scalar values. -/
theorem C125 {name : Option Enc} {fatal ignoreBom : Bool} {o : Options} (ho : construct name fatal ignoreBom = some o)
    (d : Fields (decoderOf o.name).σ) (hd : d.doNotFlush = false) (cs : List (List Nat)) (last : List Nat) :
    ∃ n, ∀ fuel, n ≤ fuel → ∀ t, decodeChunks o fuel d cs last = .stop (some t) → ∀ c ∈ t, IsScalar c := by
  have he := name_of ho
  obtain ⟨inv, W, φ, p, hi⟩ := all o.name he
  obtain ⟨x, hx, n, hn⟩ := outcome_chunks p cs last d _ false hi (Or.inl ⟨hd, rfl, rfl⟩)
  obtain ⟨K, hK, hk⟩ := DecodePure.all o.name he
  refine ⟨n, fun fuel hf t ht => ?_⟩
  rw [hn fuel hf] at ht
  subst ht
  exact DecodeAll.outcome_clean hK hk hx

/- A surrogate pair, a lone surrogate, and a surrogate in UTF-8. -/
example : decodeChunks ⟨.UTF_16LE, false, false⟩ 20 ⟨Utf16D.init, [], false, false⟩ [[0x3D]] [0xD8, 0x00, 0xDE, 0x3D, 0xD8] =
    .stop (some [0x1F600]) := by decide +kernel
example : decodeChunks ⟨.UTF_8, false, false⟩ 20 ⟨Utf8D.init, [], false, false⟩ [[0xED]] [0xA0, 0x80, 0x41] =
    .stop (some [0x41]) := by decide +kernel

/-! ### C126 -/

/-- C126. `decode` of a whole byte sequence looks for a byte order mark first: with one it decodes the bytes behind it in the
encoding of the mark, without one all bytes in the encoding named. The text, or the failed assertion, is that of a
`text_decoder` of that encoding that ignores byte order marks. -/
theorem C126 {name e : Enc} {b rest : List Nat} (hs : Sniffed name b e rest) (he : e ≠ .replacement) :
    ∃ n, ∀ fuel, n ≤ fuel → ∀ d : Fields (decoderOf e).σ, d.doNotFlush = false →
      match decodeChunks ⟨e, false, true⟩ fuel d [] rest with
      | .stop (some t) => ∃ q, Verif.Model.Legacy.decode fuel (toQueue b) name [] = .stop (.finished, q, toQueue t)
      | .ub => Verif.Model.Legacy.decode fuel (toQueue b) name [] = .ub
      | _ => False := by
  obtain ⟨n, hn⟩ := DecodeQueue.same he rest
  refine ⟨n, fun fuel hf d hd => ?_⟩
  rw [DecodeQueue.decode_sniffed hs]
  exact hn fuel hf d hd

/-- Every byte sequence is sniffed in exactly one way. -/
theorem C126_sniffed (name : Enc) (b : List Nat) :
    ∃ e rest, Sniffed name b e rest ∧ ∀ e' rest', Sniffed name b e' rest' → e' = e ∧ rest' = rest := by
  by_cases h1 : [0xEF, 0xBB, 0xBF] <+: b
  · obtain ⟨r, rfl⟩ := h1
    refine ⟨_, r, .utf8 r, fun e' r' h => ?_⟩
    cases h with
    | utf8 => exact ⟨rfl, rfl⟩
    | none _ h => exact absurd ⟨r, rfl⟩ h
  · by_cases h2 : [0xFE, 0xFF] <+: b
    · obtain ⟨r, rfl⟩ := h2
      refine ⟨_, r, .utf16be r, fun e' r' h => ?_⟩
      cases h with
      | utf16be => exact ⟨rfl, rfl⟩
      | none _ _ h => exact absurd ⟨r, rfl⟩ h
    · by_cases h3 : [0xFF, 0xFE] <+: b
      · obtain ⟨r, rfl⟩ := h3
        refine ⟨_, r, .utf16le r, fun e' r' h => ?_⟩
        cases h with
        | utf16le => exact ⟨rfl, rfl⟩
        | none _ _ _ h => exact absurd ⟨r, rfl⟩ h
      · refine ⟨name, b, .none b h1 h2 h3, fun e' r' h => ?_⟩
        cases h with
        | utf8 => exact absurd ⟨_, rfl⟩ h1
        | utf16be => exact absurd ⟨_, rfl⟩ h2
        | utf16le => exact absurd ⟨_, rfl⟩ h3
        | none => exact ⟨rfl, rfl⟩

/-- Fewer than three bytes that may still be followed by others: `decode` waits and takes nothing. -/
theorem C126_waits (name : Enc) (b : List Nat) (hb : b.length < 3) (fuel : Nat) (out : Queue) :
    Verif.Model.Legacy.decode fuel (b.map .val) name out = .stop (.cont, b.map .val, out) := by
  unfold Verif.Model.Legacy.decode bomSniff peek
  rw [if_pos ⟨by simpa using hb, getLast_vals b⟩]

/-- In the encoding `replacement`, bytes without a byte order mark give no text at all. -/
theorem C126_replacement {b : List Nat} (hs : Sniffed .replacement b .replacement b) (fuel : Nat) (hf : 2 ≤ fuel) :
    ∃ q, Verif.Model.Legacy.decode fuel (toQueue b) .replacement [] = .stop (.finished, q, [.eoq]) := by
  rw [DecodeQueue.decode_sniffed hs]
  obtain ⟨k, rfl⟩ : ∃ k, fuel = k + 1 + 1 := ⟨fuel - 2, by omega⟩
  unfold runCoder decoderOf
  rw [Verif.Proof.LegacyApi.toQueue_qq]
  match b with
  | [] => exact ⟨_, rfl⟩
  | [v] => exact ⟨_, rfl⟩
  | v :: v2 :: b => exact ⟨_, rfl⟩

example : Sniffed .Shift_JIS [0xFE, 0xFF, 0x30, 0x42] .UTF_16BE [0x30, 0x42] := .utf16be _
example : Sniffed .Shift_JIS [0xFE] .Shift_JIS [0xFE] := .none _ (by decide) (by decide) (by decide)
example : Verif.Model.Legacy.decode 9 (toQueue [0xFE, 0xFF, 0x30, 0x42]) .Shift_JIS [] = .stop (.finished, [.eoq], toQueue [0x3042]) := by
  decide +kernel

end Verif.Props.DecodeAll
