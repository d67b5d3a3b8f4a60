import Verif.Proof.Percent
/- Properties C42 and C72: percent encoding. -/
namespace Verif.Props.Percent
open Verif.Model.Coder Verif.Model.Legacy Verif.Model.Percent Verif.Spec Verif.Spec.Percent
open Verif.Proof.Percent Verif.Proof.CoderRun Verif.Proof.Utf8Report Verif.Proof.LegacyApi Verif.Proof.LegacyRun Verif.Proof.Utf8Coder

/-- The predicate of each set. -/
def setOf : PSet → Nat → Bool
  | .c0 => isC0ControlSet
  | .fragment => isFragmentSet
  | .query => isQuerySet
  | .specialQuery => isSpecialQuerySet
  | .path => isPathSet
  | .userinfo => isUserinfoSet
  | .component => isComponentSet
  | .form => isFormSet

/-- C42. The predicates decide the sets of the standard, for every code point. -/
theorem C42_sets (p : PSet) (c : Nat) : setOf p c = decide (InSet p c) := by
  by_cases h : c < 0x7F
  · have : (List.range 0x7F).all (fun c => setOf p c == decide (InSet p c)) = true := by cases p <;> decide +kernel
    exact beq_iff_eq.mp (List.all_eq_true.mp this c (List.mem_range.mpr h))
  · have h0 : isC0ControlSet c = true := by simp [isC0ControlSet]; omega
    have hi : InSet p c := Or.inr (Or.inl (by omega))
    rw [decide_eq_true hi]
    cases p <;>
      simp [setOf, isFormSet, isComponentSet, isUserinfoSet, isPathSet, isFragmentSet, isSpecialQuerySet, isQuerySet, h0]

/-- C42. The form set in other words: everything but letters, digits and `*-._`. -/
theorem C42_form_set (c : Nat) : ¬ InSet .form c ↔
    (0x30 ≤ c ∧ c ≤ 0x39) ∨ (0x41 ≤ c ∧ c ≤ 0x5A) ∨ (0x61 ≤ c ∧ c ≤ 0x7A) ∨ c ∈ codes "*-._" := by
  by_cases h : c < 0x7F
  · have : (List.range 0x7F).all (fun c => decide (¬ InSet .form c ↔
      (0x30 ≤ c ∧ c ≤ 0x39) ∨ (0x41 ≤ c ∧ c ≤ 0x5A) ∨ (0x61 ≤ c ∧ c ≤ 0x7A) ∨ c ∈ codes "*-._")) = true := by decide +kernel
    exact of_decide_eq_true (List.all_eq_true.mp this c (List.mem_range.mpr h))
  · have e : codes "*-._" = [0x2A, 0x2D, 0x2E, 0x5F] := by decide
    have : InSet .form c := Or.inr (Or.inl (by omega))
    rw [e]
    simp only [this, not_true_eq_false, false_iff, List.mem_cons, List.not_mem_nil, or_false]
    omega

/-- C42. Text that an encoding can write becomes the percent encoding of its bytes. -/
theorem C42_encode (e : Enc) (s bytes : List Nat) (h : Encoded e s bytes) (p : PSet) (plus : Bool) :
    ∃ n, ∀ fuel, n ≤ fuel → percentEncodeAfterEncoding fuel e s (setOf p) plus = .stop (bytes.flatMap (unit p plus)) :=
  loop_encoded h (C42_sets p) plus

theorem encoded_utf8 (s : List Nat) (h : ∀ c ∈ s, IsScalar c) : Encoded .UTF_8 s (utf8s s) := by
  have e : utf8s s = (s.map utf8).flatten := by simp [utf8s, List.flatMap]
  rw [e]
  refine encoded_of_plain (enc := utf8E) rfl utf8_plain ?_
  induction s with
  | nil => exact .nil
  | cons c s ih =>
    have hc := h c (by simp)
    unfold IsScalar at hc
    exact .cons (run_encode (by omega)) (ih (fun x hx => h x (by simp [hx])) (by simp [utf8s, List.flatMap]))

/-- C42. UTF-8 percent encoding. -/
theorem C42_utf8 (s : List Nat) (h : ∀ c ∈ s, IsScalar c) (p : PSet) :
    ∃ n, ∀ fuel, n ≤ fuel → utf8PercentEncode fuel s (setOf p) = .stop ((utf8s s).flatMap (unit p false)) :=
  C42_encode .UTF_8 s _ (encoded_utf8 s h) p false

/- `"50% é"` with the component set. -/
example : (utf8s [0x35, 0x30, 0x25, 0x20, 0xE9]).flatMap (unit .component false) = codes "50%25%20%C3%A9" := by decide +kernel
example : (utf8s [0x35, 0x30, 0x25, 0x20, 0xE9]).flatMap (unit .form true) = codes "50%25+%C3%A9" := by decide +kernel

/-- C42. `percent_decode` is percent decoding, and this says what it returns. -/
theorem C42_decode (s t : List Nat) : percentDecode s = t ↔ Decodes s t :=
  ⟨fun h => h ▸ decodes_percentDecode s, fun h => decodes_unique (decodes_percentDecode s) h⟩

example : Decodes (codes "%41%g%e9") [0x41, 0x25, 0x67, 0xE9] := (C42_decode _ _).mp (by decide +kernel)

/-- C42. `string_percent_decode` decodes the UTF-8 form of the string. -/
theorem C42_string_decode (s : List Nat) (h : ∀ c ∈ s, IsScalar c) (fuel : Nat) (hf : s.length < fuel) :
    ∃ t, stringPercentDecode fuel s = .stop t ∧ Decodes (utf8s s) t := by
  refine ⟨percentDecode (utf8s s), ?_, decodes_percentDecode _⟩
  unfold stringPercentDecode
  rw [utf8Encode_eq s (fun c hc => by have := h c hc; unfold IsScalar at this; omega) fuel hf]
  dsimp only
  rw [fromQueue_outAt]

/-- C42. Escaping every byte with `percent_encode` is undone by `percent_decode`. -/
theorem C42_bytes (s : List Nat) (h : ∀ b ∈ s, b < 256) :
    ∃ t, s.mapM percentEncode = some t ∧ percentDecode t.flatten = s := by
  refine ⟨s.map escape, ?_, (C42_decode _ _).mpr ?_⟩
  · induction s with
    | nil => rfl
    | cons b s ih =>
      rw [List.mapM_cons, percentEncode_eq b (h b (by simp)), ih (fun x hx => h x (by simp [hx]))]
      rfl
  · induction s with
    | nil => exact .nil
    | cons b s ih => exact decodes_escape (h b (by simp)) (ih (fun x hx => h x (by simp [hx])))

example : ∀ b ∈ [0, 0xFF, 0x25], b < 256 := by decide

/-- C42. With a set that has `%` (component, form) decoding the encoded text gives the bytes of the text back. -/
theorem C42_roundtrip (e : Enc) (s bytes : List Nat) (h : Encoded e s bytes) (p : PSet) (hp : InSet p 0x25) :
    ∃ n, ∀ fuel, n ≤ fuel → ∃ t, percentEncodeAfterEncoding fuel e s (setOf p) false = .stop t ∧ percentDecode t = bytes := by
  obtain ⟨n, hn⟩ := C42_encode e s bytes h p false
  refine ⟨n, fun fuel hf => ⟨_, hn fuel hf, ?_⟩⟩
  obtain ⟨c, k, q, out, h1, h2, h3⟩ := h
  obtain ⟨o, rfl, ho⟩ := writes_encodeOrFail (writes_encoder h1) h2
  rw [fromQueue_outAt] at h3
  subst h3
  exact (C42_decode _ _).mpr (decodes_units hp ho)

example : InSet .component 0x25 ∧ InSet .form 0x25 ∧ ¬ InSet .path 0x25 := by decide

/-- C42. The text written for a form (space as plus) is undone by turning plus into space and decoding. -/
theorem C42_form (s : List Nat) (h : ∀ b ∈ s, b < 256) :
    percentDecode ((s.flatMap (unit .form true)).map fun c => if c = 0x2B then 0x20 else c) = s := by
  refine (C42_decode _ _).mpr ?_
  induction s with
  | nil => exact .nil
  | cons b s ih =>
    have ih := ih (fun x hx => h x (by simp [hx]))
    have hb := h b (by simp)
    have hu : unit .form true b = if true = true ∧ b = 0x20 then [0x2B] else if InSet .form b then escape b else [b] := rfl
    rw [List.flatMap_cons, List.map_append, hu]
    by_cases h1 : b = 0x20
    · subst h1
      rw [if_pos (by simp)]
      exact decodes_plain (by decide) ih
    · rw [if_neg (by simp [h1])]
      by_cases h2 : InSet .form b
      · rw [if_pos h2]
        have e : (escape b).map (fun c => if c = 0x2B then 0x20 else c) = escape b := by
          have : (List.range 256).all (fun b => (escape b).map (fun c => if c = 0x2B then 0x20 else c) == escape b) = true := by
            decide +kernel
          exact beq_iff_eq.mp (List.all_eq_true.mp this b (List.mem_range.mpr hb))
        rw [e]
        exact decodes_escape hb ih
      · rw [if_neg h2]
        have h3 : b ≠ 0x2B := by rintro rfl; exact h2 (by decide)
        have h4 : b ≠ 0x25 := by rintro rfl; exact h2 (by decide)
        simp only [List.map_cons, List.map_nil, if_neg h3]
        exact decodes_plain h4 ih

/-- C42. The encoded text has printable ASCII only: code points outside the set, and those of the escapes. -/
theorem C42_alphabet (p : PSet) (s : List Nat) (h : ∀ b ∈ s, b < 256) :
    ∀ c ∈ s.flatMap (unit p false), 0x20 ≤ c ∧ c ≤ 0x7E ∧ (¬ InSet p c ∨ c = 0x25 ∨ ∃ v, HexDigit c v) := by
  intro c hc
  obtain ⟨b, hb, hc⟩ := List.mem_flatMap.mp hc
  have hlt := h b hb
  unfold unit at hc
  rw [if_neg (by simp)] at hc
  by_cases hi : InSet p b
  · rw [if_pos hi] at hc
    simp only [escape, List.map_cons, List.map_nil, List.mem_cons, List.not_mem_nil, or_false] at hc
    rcases hc with rfl | rfl | rfl
    · exact ⟨by omega, by omega, Or.inr (Or.inl rfl)⟩
    · refine ⟨by split <;> omega, by split <;> omega, Or.inr (Or.inr ⟨_, hex_escape _ (by omega)⟩)⟩
    · refine ⟨by split <;> omega, by split <;> omega, Or.inr (Or.inr ⟨_, hex_escape _ (by omega)⟩)⟩
  · rw [if_neg hi, List.mem_singleton] at hc
    subst hc
    refine ⟨?_, ?_, Or.inl hi⟩ <;> (unfold InSet at hi; omega)

/-! ### C72 -/

theorem error_self {e : Enc} {enc : Run Unit} (he : encoderOf e = some ⟨Unit, (), enc⟩) (hj : e ≠ .ISO_2022_JP) {c cp : Nat}
    (h : enc () (.val c) = some (.error cp, (), [])) : cp = c := by
  cases e <;> simp only [encoderOf, Option.some.injEq, Coder.mk.injEq, heq_eq_eq, true_and, reduceCtorEq] at he
  case ISO_2022_JP => exact absurd rfl hj
  case EUC_JP =>
    subst he
    have hf : Verif.Model.Table.pointer Verif.Model.Tables.ptr0Jis0208 Verif.Model.Tables.ptr1Jis0208 0xFF0D ≠ none := by decide +kernel
    by_cases h1 : c = 0x2212
    · subst h1
      simp only [eucJpE] at h
      simp at h
      split at h
      · rename_i h2; exact absurd h2 hf
      · simp at h
    · simp only [eucJpE] at h
      rw [if_neg h1] at h
      repeat' split at h
      all_goals simp at h
      exact h.symm
  case Shift_JIS =>
    subst he
    have hf : Verif.Model.Table.pointer Verif.Model.Tables.ptr0ShiftJIS Verif.Model.Tables.ptr1ShiftJIS 0xFF0D ≠ none := by decide +kernel
    by_cases h1 : c = 0x2212
    · subst h1
      simp only [sjisE] at h
      simp at h
      split at h
      · rename_i h2; exact absurd h2 hf
      · simp at h
    · simp only [sjisE] at h
      rw [if_neg h1] at h
      repeat' split at h
      all_goals simp at h
      exact h.symm
  case UTF_8 =>
    subst he; simp only [utf8E] at h; repeat' split at h
    all_goals simp at h
  case GBK =>
    subst he; simp only [gbE] at h; repeat' split at h
    all_goals simp at h
    all_goals exact h.symm
  case gb18030 =>
    subst he; simp only [gbE] at h; repeat' split at h
    all_goals simp at h
    all_goals exact h.symm
  case Big5 =>
    subst he; simp only [big5E] at h; repeat' split at h
    all_goals simp at h
    exact h.symm
  case EUC_KR =>
    subst he; simp only [eucKrE] at h; repeat' split at h
    all_goals simp at h
    exact h.symm
  case x_user_defined =>
    subst he; simp only [userDefinedE] at h; repeat' split at h
    all_goals simp at h
    exact h.symm
  all_goals
    subst he; simp only [singleE] at h; repeat' split at h
    all_goals simp at h
    exact h.symm

/-- C72. With every encoder but that of ISO-2022-JP the text is encoded code point by code point: one that the encoding
has becomes the percent encoding of its bytes, any other the escaped numeric character reference. -/
theorem C72_unencodable (e : Enc) (he : e ≠ .ISO_2022_JP) (p : PSet) (plus : Bool) (s : List Nat) (g : Nat → List Nat)
    (h : ∀ c ∈ s, (∃ bytes, Encoded e [c] bytes ∧ g c = bytes.flatMap (unit p plus)) ∨ ∃ cp, Rejected e c cp ∧ g c = reference c)
    (hn : e ≠ .replacement ∧ e ≠ .UTF_16BE ∧ e ≠ .UTF_16LE) (fuel : Nat) (hf : s.length < fuel) :
    percentEncodeAfterEncoding fuel e s (setOf p) plus = .stop (s.flatMap g) := by
  obtain ⟨k, hk⟩ : ∃ k, encoderOf e = some k := by
    cases e <;> first | exact ⟨_, rfl⟩ | exact absurd rfl hn.1 | exact absurd rfl hn.2.1 | exact absurd rfl hn.2.2
  obtain ⟨enc, rfl, hp⟩ := plain_encoder hk he
  have hw : Writes enc := writes_encoder hk
  have key : ∀ c ∈ s, (∃ bs, enc () (.val c) = some (.bytes bs, (), []) ∧ g c = bs.flatMap (unit p plus)) ∨
      ∃ cp, enc () (.val c) = some (.error cp, (), []) ∧ g c = reference cp := by
    intro c hc
    rcases h c hc with ⟨bytes, h1, h2⟩ | ⟨cp, h1, h2⟩
    · obtain ⟨bss, h3, rfl⟩ := encoded_plain hk hp h1
      cases h3 with
      | cons h4 h5 =>
        cases h5
        exact Or.inl ⟨_, h4, by simpa using h2⟩
    · suffices he1 : enc () (.val c) = some (.error cp, (), []) by
        have := error_self hk he he1
        subst this
        exact Or.inr ⟨_, he1, h2⟩
      obtain ⟨k, n, q, out, h3, h4⟩ := h1
      rw [hk] at h3
      cases h3
      rw [toQueue_qq] at h4
      have h5 := encodeOrFail_mono h4 (show n ≤ n + 2 by omega)
      unfold encodeOrFail runCoder at h5
      rw [nil_outAt] at h5
      dsimp only at h5
      rcases hp.2 c with e1 | ⟨bs, e1⟩ | ⟨cp', e1⟩
      · rw [processQueue, read_cons] at h5
        simp [processItem, e1] at h5
      · have := plain_encode hp (List.Forall₂.cons e1 .nil) .fatal (n + 2) (by simp)
        rw [this] at h5
        simp at h5
      · rw [processQueue_fatal (read_cons c []) e1] at h5
        simp only [Ends.stop.injEq, Prod.mk.injEq, Res.error.injEq] at h5
        rw [e1, h5.1]
  unfold percentEncodeAfterEncoding
  rw [hk, toQueue_qq]
  dsimp only
  refine (loop_plain hp hw (C42_sets p) plus g fuel fuel s [] hf hf ?_ ?_ ?_).trans (by simp)
  · intro c hc e1
    rcases key c hc with ⟨bs, e2, _⟩ | ⟨cp, e2, _⟩ <;> rw [e1] at e2 <;> cases e2
  · intro c hc bs e1
    rcases key c hc with ⟨bs', e2, e3⟩ | ⟨cp, e2, _⟩ <;> rw [e1] at e2 <;> cases e2
    exact e3
  · intro c hc cp e1
    rcases key c hc with ⟨bs', e2, _⟩ | ⟨cp', e2, e3⟩ <;> rw [e1] at e2 <;> cases e2
    exact e3

example : percentEncodeAfterEncoding 9 .windows_1252 [0x61, 0x263A, 0xE9] (setOf .query) false =
    .stop (codes "a%26%239786%3B%E9") := by
  have h := C72_unencodable .windows_1252 (by decide) .query false [0x61, 0x263A, 0xE9]
    (fun c => if c = 0x263A then reference c else if c = 0x61 then codes "a" else codes "%E9") ?_ (by decide) 9 (by decide)
  · rw [h]; decide +kernel
  intro c hc
  have enc : ∀ c b, c ≠ 0x263A → singleE Verif.Model.Tables.ptr0Windows1252 Verif.Model.Tables.ptr1Windows1252 () (.val c) =
      some (.bytes [b], (), []) → Encoded .windows_1252 [c] [b] := by
    intro c b _ h
    exact encoded_of_plain rfl (Verif.Proof.SingleByte.single_plain _ _) (List.Forall₂.cons h .nil)
  simp only [List.mem_cons, List.not_mem_nil, or_false] at hc
  rcases hc with rfl | rfl | rfl
  · exact Or.inl ⟨[0x61], enc _ _ (by decide) (by decide +kernel), by decide +kernel⟩
  · refine Or.inr ⟨0x263A, ⟨_, 2, [.eoq], [.eoq], rfl, ?_⟩, by decide +kernel⟩
    unfold encodeOrFail runCoder
    rw [toQueue_qq, processQueue_fatal (read_cons 0x263A []) (st' := ()) (cp := 0x263A) (pre := []) (by decide +kernel)]
    rfl
  · exact Or.inl ⟨[0xE9], enc _ _ (by decide) (by decide +kernel), by decide +kernel⟩

/-- With ISO-2022-JP the state of the encoder is lost at an unencodable code point: the `a` behind it is written while the
text is still in the two-byte set, so it is not read back. -/
theorem C72_iso_2022_jp_state :
    percentEncodeAfterEncoding 9 .ISO_2022_JP [0x4E9C, 0x1F600, 0x61] (setOf .query) false =
      .stop (codes "%1B$B0!%26%23128512%3Ba") := by
  have h1 : encodeOrFail 9 (toQueue [0x4E9C, 0x1F600, 0x61]) ⟨JpE, .ascii, jpE⟩ [] =
      .stop (.error 0x1F600, [.val 0x61, .eoq], outAt [0x1B, 0x24, 0x42, 0x30, 0x21] true) := by decide +kernel
  have h2 : encodeOrFail 9 [.val 0x61, .eoq] ⟨JpE, .ascii, jpE⟩ [] =
      .stop (.finished, [.eoq], outAt [0x61] true) := by decide +kernel
  unfold percentEncodeAfterEncoding
  rw [show encoderOf .ISO_2022_JP = some ⟨JpE, .ascii, jpE⟩ from rfl]
  dsimp only
  rw [encodeLoop, h1]
  dsimp only
  rw [fromQueue_outAt, encodeBytes_eq (C42_sets .query) false _ (by decide)]
  dsimp only
  rw [encodeLoop, h2]
  dsimp only
  rw [fromQueue_outAt, encodeBytes_eq (C42_sets .query) false _ (by decide)]
  dsimp only
  rw [serializeInteger, Verif.Proof.Digits.toChars_decimal]
  decide +kernel

end Verif.Props.Percent
