import Verif.Proof.HostParse
import Verif.Props.Infra
/- Properties C43-C45 and C73-C76: hosts. -/
namespace Verif.Props.Host
open Verif.Model.Coder Verif.Model.Host
open Verif.Spec Verif.Spec.Infra Verif.Spec.Percent Verif.Spec.Host
open Verif.Proof.Host4 Verif.Proof.Host6 Verif.Proof.Host6Text Verif.Proof.HostParse

/-! ### C43 IPv4 addresses round trip -/

/-- C43. Parsing the text of an address gives the address and no validation error. -/
theorem C43_roundtrip (n : Nat) (h : n < 2 ^ 32) : parseIpv4 (serializeIpv4 n) none = some (.ipv4 n, none) := by
  rw [dotted_eq n h, parse_dotted n h]

/-- C43. The text is dotted decimal. -/
theorem C43_text (n : Nat) (h : n < 2 ^ 32) : serializeIpv4 n = dotted n := dotted_eq n h

example : 0xC0A80001 < 2 ^ 32 ∧ dotted 0xC0A80001 = codes "192.168.0.1" := by decide +kernel

/-! ### C44 numbers -/

/-- C44, full statement: the value of the digits for a number, a rejection for everything else. It is false of the code. -/
def C44_statement : Prop := ∀ s : List Nat, ∃ o e, parseIpv4Number s = some (o, e) ∧ ∀ n b, (o = some n ∧ e = b) ↔ V4Number s n b

/-- C44. The digit 8 passes for octal: the uninitialised variable is read. -/
theorem C44_octal_eight (t : List Nat) (h : ∀ c ∈ t, 0x30 ≤ c ∧ c ≤ 0x38) : parseIpv4Number (0x30 :: 0x38 :: t) = none := by
  unfold parseIpv4Number
  dsimp only
  rw [if_neg (by decide), if_pos rfl, digits_eq _ 8 (Or.inl rfl), if_neg (by simp), if_pos]
  · have : fromChars32 8 (0x38 :: t) = none := by
      unfold fromChars32
      have : List.takeWhile (isDigitOf 8) (0x38 :: t) = [] := by rw [List.takeWhile_cons]; rfl
      rw [this]; rfl
    rw [this]; rfl
  · intro c hc
    have hall : ∀ c < 0x39, 0x30 ≤ c → allowed 8 c = true := by decide
    rcases List.mem_cons.mp hc with rfl | hc
    · decide
    · exact hall c (by have := h c hc; omega) (h c hc).1

/-- C44. `018` is the number 1. -/
theorem C44_octal_stops : parseIpv4Number (codes "018") = some (some 1, true) := by decide

/-- C44. A number that does not fit 32 bits: the uninitialised variable is read. -/
theorem C44_overflow (s : List Nat) (n : Nat) (b : Bool) (h : V4Number s n b) (hn : 2 ^ 32 ≤ n) : parseIpv4Number s = none :=
  number_overflow h hn

example : V4Number (codes "0xFFFFFFFFF") 0xFFFFFFFFF true := by
  have : codes "0xFFFFFFFFF" = 0x30 :: 0x78 :: codes "FFFFFFFFF" := by decide
  rw [this]
  exact .hex (Or.inl rfl) ((numeral_iff _ _ _).mpr (by decide))

theorem C44_statement_false : ¬ C44_statement := by
  intro h
  obtain ⟨o, e, h1, _⟩ := h (codes "08")
  have : parseIpv4Number (codes "08") = none := C44_octal_eight [] (by simp)
  rw [this] at h1
  cases h1

/-- C44, partial: exact where the number fits 32 bits and no 8 stands in an octal number. Missing: the other strings, for
which the result is not defined (`C44_overflow`, `C44_octal_eight`) or wrong (`C44_octal_stops`). -/
theorem C44_partial (s : List Nat) (h8 : ¬ (s.head? = some 0x30 ∧ 0x38 ∈ s ∧ s[1]? ≠ some 0x78 ∧ s[1]? ≠ some 0x58))
    (hn : ∀ n b, V4Number s n b → n < 2 ^ 32) :
    ∃ o e, parseIpv4Number s = some (o, e) ∧ ∀ n b, (o = some n ∧ e = b) ↔ V4Number s n b := number_spec s h8 hn

example : parseIpv4Number (codes "0xfF") = some (some 255, true) ∧ parseIpv4Number (codes "017") = some (some 15, true) ∧
    parseIpv4Number (codes "255") = some (some 255, false) ∧ parseIpv4Number (codes "1e") = some (none, false) := by decide

/-! ### C73 IPv4 addresses -/

/-- The condition of `C44_partial`. -/
def Plain (s : List Nat) : Prop :=
  ¬ (s.head? = some 0x30 ∧ 0x38 ∈ s ∧ s[1]? ≠ some 0x78 ∧ s[1]? ≠ some 0x58) ∧ ∀ n b, V4Number s n b → n < 2 ^ 32

/-- Whether the standard reports a validation error for an address. -/
def Irregular (s ns : List Nat) : Prop :=
  (fields (· = 0x2E) s).getLast? = some [] ∨ (∃ p ∈ v4Parts s, ∃ n, V4Number p n true) ∨ ∃ n ∈ ns, 255 < n

/-- What the IPv4 parser must give: the text itself unless it consists of up to four numbers, the address if they fit, and a
failure otherwise. -/
def C73_holds (s : List Nat) : Prop :=
  (∀ ec, (4 < (v4Parts s).length ∨ ∃ p ∈ v4Parts s, ¬ ∃ n b, V4Number p n b) → parseIpv4 s ec = some (.opaque s, ec)) ∧
  ∀ ns, (v4Parts s).length ≤ 4 → List.Forall₂ (fun p n => ∃ b, V4Number p n b) (v4Parts s) ns → ∀ ec,
    (¬ V4Fits ns → parseIpv4 s ec = some (.null, some .validationError)) ∧
    (V4Fits ns → Irregular s ns → parseIpv4 s ec = some (.ipv4 (v4Value ns), some .validationError)) ∧
    (V4Fits ns → ¬ Irregular s ns → parseIpv4 s ec = some (.ipv4 (v4Value ns), ec))

/-- C73, full statement. It is false of the code. -/
def C73_statement : Prop := ∀ s : List Nat, (∀ c ∈ s, IsScalar c) → C73_holds s

/-- C73, partial: for text whose parts `parse_ipv4_number` reads properly (see C44). -/
theorem C73_partial (s : List Nat) (hs : ∀ c ∈ s, IsScalar c) (hp : ∀ p ∈ v4Parts s, Plain p) : C73_holds s := by
  have hg : ∀ p ∈ v4Parts s, Good p := fun p h => number_spec p (hp p h).1 (hp p h).2
  exact ⟨fun ec h => parse_bad s hs hg ec h, fun ns h4 hn ec => parse_good s hs hg ec h4 ns hn⟩

/-- `1.256`: the last number takes the three lower bytes. -/
example : v4Parts (codes "1.256.") = [codes "1", codes "256"] ∧ v4Value [1, 256] = 0x01000100 ∧
    parseIpv4 (codes "1.256.") none = some (.ipv4 0x01000100, some .validationError) := by decide +kernel

theorem C73_statement_false : ¬ C73_statement := by
  intro h
  have h1 := (h (codes "1.08") (by decide)).1 none (Or.inr ⟨codes "08", by decide, ?_⟩)
  · exact absurd h1 (by decide +kernel)
  · rintro ⟨n, b, hn⟩
    have e : codes "08" = [0x30, 0x38] := by decide
    rw [e] at hn
    cases hn with
    | dec h1 h2 => simp at h2
    | oct h1 => exact absurd (((numeral_iff _ _ _).mp h1).2.1 0x38 (by simp)) (by decide)
    | hex h1 _ => omega

/-! ### C45 IPv6 addresses round trip -/

/-- C45, full statement. It is false of the code. -/
def C45_statement : Prop := ∀ a : List Nat, a.length = 8 → (∀ v ∈ a, v < 65536) →
  ∃ n, ∀ fuel, n ≤ fuel → parseIpv6 fuel (serializeIpv6 a) none = .stop (.ipv6 a, none)

/-- C45. `0:1:0:1:0:1:1:1` becomes `0:1:0::1:1:1`. -/
theorem C45_lost : serializeIpv6 [0, 1, 0, 1, 0, 1, 1, 1] = codes "0:1:0::1:1:1" ∧
    ∀ fuel, 12 ≤ fuel → parseIpv6 fuel (codes "0:1:0::1:1:1") none = .stop (.ipv6 [0, 1, 0, 0, 0, 1, 1, 1], none) := by
  have h1 : compressOf [0, 1, 0, 1, 0, 1, 1, 1] = some 3 := by decide
  have h2 : serializeIpv6 [0, 1, 0, 1, 0, 1, 1, 1] = codes "0:1:0::1:1:1" := by
    have h := out_short [0, 1, 0] [1, 1, 1] 1 1 (by decide) (by decide)
    unfold serializeIpv6
    rw [h1]
    refine h.trans ?_
    decide +kernel
  refine ⟨h2, fun fuel hf => ?_⟩
  have := roundtrip [0, 1, 0, 1, 0, 1, 1, 1] (by decide) (by decide) (some 3) h1 (by simp) none fuel (by
    rw [h2]; exact Nat.le_trans (by decide) hf)
  rw [h2] at this
  exact this

theorem C45_statement_false : ¬ C45_statement := by
  intro h
  obtain ⟨n, hn⟩ := h [0, 1, 0, 1, 0, 1, 1, 1] (by decide) (by decide)
  have h1 := hn (n + 12) (by omega)
  rw [C45_lost.1, C45_lost.2 (n + 12) (by omega)] at h1
  exact absurd h1 (by decide)

/-- C45, partial: the round trip and the canonical text, for addresses with at most two runs of zeros. Missing: addresses
with three or four runs, where the length of a run that is not the longest is added to that of the next one. -/
theorem C45_partial (a : List Nat) (h8 : a.length = 8) (hv : ∀ v ∈ a, v < 65536) (hz : zeroRuns a ≤ 2) :
    V6Canonical a (serializeIpv6 a) ∧
    ∀ ec fuel, (serializeIpv6 a).length ≤ fuel → parseIpv6 fuel (serializeIpv6 a) ec = .stop (.ipv6 a, ec) := by
  obtain ⟨h1, h2⟩ := canonical a h8 hz
  refine ⟨h1, fun ec fuel hf => ?_⟩
  have := roundtrip a h8 hv _ rfl (compress_bound a h8) ec fuel hf
  rw [this]
  cases hc : compressOf a with
  | none => rfl
  | some i =>
    obtain ⟨h3, h4⟩ := List.getElem?_eq_some_iff.mp (h2 i hc)
    unfold gapped
    dsimp only
    rw [show (0 : Nat) = a[i] from h4.symm, List.set_getElem_self]

example : [0x2001, 0xDB8, 0, 0, 1, 0, 0, 1].length = 8 ∧ zeroRuns [0x2001, 0xDB8, 0, 0, 1, 0, 0, 1] = 2 := by decide

/-- C45. In every case at most one piece is lost: the text denotes the address, or the address with one piece set to zero. -/
theorem C45_damage (a : List Nat) (h8 : a.length = 8) (hv : ∀ v ∈ a, v < 65536) :
    ∃ b, (b = a ∨ ∃ i, b = a.set i 0) ∧
      ∀ ec fuel, (serializeIpv6 a).length ≤ fuel → parseIpv6 fuel (serializeIpv6 a) ec = .stop (.ipv6 b, ec) := by
  refine ⟨gapped a (compressOf a), ?_, fun ec fuel hf => roundtrip a h8 hv _ rfl (compress_bound a h8) ec fuel hf⟩
  cases compressOf a with
  | none => exact Or.inl rfl
  | some i => exact Or.inr ⟨i, rfl⟩

/-! ### C74 the text of IPv6 addresses -/

/-- C74, full statement: the texts of the standard are accepted, with their address, and nothing else. False of the code. -/
def C74_statement : Prop := ∀ s : List Nat, ∃ n, ∀ fuel, n ≤ fuel → ∃ h ec, parseIpv6 fuel s none = .stop (h, ec) ∧
  (h = .null ∨ ∃ a, h = .ipv6 a) ∧ ∀ a, h = .ipv6 a ↔ V6 s a

/-- C74. Every address with an embedded IPv4 address writes through an empty `std::optional`. -/
theorem C74_embedded (s a : List Nat) (h : V6 s a) (hd : 0x2E ∈ s) (fuel : Nat) (hf : s.length < fuel) (ec : Ec) :
    parseIpv6 fuel s ec = .ub := parse_embedded fuel s a ec h hd hf

/-- `::ffff:192.168.0.1`. -/
theorem v6_embedded : V6 (codes "::ffff:192.168.0.1") [0, 0, 0, 0, 0, 0xFFFF, 0xC0A8, 0x0001] := by
  have h := V6.short (ls := []) (l := []) .nil (Pieces.cons (p := codes "ffff") (v := 0xFFFF)
    ((piece_iff _ _).mpr (by decide)) (Pieces.quad (n := 0xC0A80001) (by decide))) (by decide)
  have e : join 0x3A [] ++ [0x3A, 0x3A] ++ join 0x3A [codes "ffff", dotted 0xC0A80001] = codes "::ffff:192.168.0.1" := by
    decide +kernel
  rw [e] at h
  exact h

theorem C74_statement_false : ¬ C74_statement := by
  intro h
  obtain ⟨n, hn⟩ := h (codes "::ffff:192.168.0.1")
  obtain ⟨x, ec, h1, _⟩ := hn (n + 100) (by omega)
  rw [C74_embedded _ _ v6_embedded (by decide) (n + 100) (Nat.lt_of_lt_of_le (by decide) (Nat.le_add_left 100 n))] at h1
  cases h1

/-- C74, partial: text without dots. Missing: embedded IPv4 addresses, undefined by `C74_embedded`. -/
theorem C74_partial (s : List Nat) (hd : 0x2E ∉ s) (ec : Ec) (fuel : Nat) (hf : s.length ≤ fuel) :
    ∃ h ec', parseIpv6 fuel s ec = .stop (h, ec') ∧ (h = .null ∨ ∃ a, h = .ipv6 a) ∧ (h ≠ .null → ec' = ec) ∧
      ∀ a, h = .ipv6 a ↔ V6 s a := by
  obtain ⟨h, ec', h1, h2, h3⟩ := parse_total fuel s ec hd hf
  refine ⟨h, ec', h1, h2, h3, fun a => ⟨?_, fun hv => ?_⟩⟩
  · rintro rfl
    exact parse_sound fuel s ec ec' a h1
  · have : parseIpv6 fuel s ec = .stop (.ipv6 a, ec) := by
      cases hv with
      | full hp h8 =>
        rcases pieces_cases hp with hp | ⟨qs, us, n, hn, hq, rfl, _⟩
        · exact parse_full fuel ec hp h8 hf
        · exfalso
          obtain ⟨c, p, t, he, _⟩ := dotted_shape n hn
          exact hd (by rw [join_last, he]; simp)
      | short hl hr h7 =>
        rcases pieces_cases hr with hr | ⟨qs, us, n, hn, hq, rfl, _⟩
        · exact parse_short fuel ec hl hr h7 hf
        · exfalso
          obtain ⟨c, p, t, he, _⟩ := dotted_shape n hn
          exact hd (by rw [join_last, he]; simp)
    rw [this] at h1
    cases h1
    rfl

/-- C74. Whatever is accepted, with or without dots, is a text of the standard. -/
theorem C74_sound (s : List Nat) (fuel : Nat) (ec ec' : Ec) (a : List Nat) (h : parseIpv6 fuel s ec = .stop (.ipv6 a, ec')) :
    V6 s a := parse_sound fuel s ec ec' a h

/-- `1::2`, and `1::2::3`. -/
example : parseIpv6 10 (codes "1::2") none = .stop (.ipv6 [1, 0, 0, 0, 0, 0, 0, 2], none) ∧
    parseIpv6 10 (codes "1::2::3") none = .stop (.null, some .validationError) := by decide

/-- C74. Nine pieces fail without an error code. -/
theorem C74_silent_failure : parseIpv6 20 (codes "1:2:3:4:5:6:7:8:9") none = .stop (.null, none) := by decide

/-! ### C75 hosts -/

/-- A host of a URL as the standard has it. -/
def CleanHost : Host → Prop
  | .null => True
  | .domain s => ∀ c ∈ s, ¬ Forbidden c
  | .ipv4 n => n < 2 ^ 32
  | .ipv6 a => a.length = 8 ∧ ∀ v ∈ a, v < 65536
  | .opaque s => ∀ c ∈ s, 0x20 < c ∧ c ≤ 0x7E ∧ (c = 0x25 ∨ ¬ Forbidden c)
  | .empty => True

/-- C75. The host of a URL that is not special: a failure on forbidden code points, otherwise the percent encoded text. -/
theorem C75_opaque (toAscii : List Nat → Ec → List Nat × Ec) (s : List Nat) (hs : ∀ c ∈ s, IsScalar c)
    (hb : s.head? ≠ some 0x5B) : ∃ n, ∀ fuel, n ≤ fuel → ∀ ec, ∃ ec',
      ((∃ c ∈ s, Forbidden c ∧ c ≠ 0x25) → parseHost toAscii fuel s true ec = .stop (.null, some .validationError)) ∧
      ((¬ ∃ c ∈ s, Forbidden c ∧ c ≠ 0x25) →
        parseHost toAscii fuel s true ec = .stop (.opaque ((utf8s s).flatMap (unit .c0 false)), ec')) := by
  obtain ⟨n, hn⟩ := opaque_eq s hs
  refine ⟨n, fun fuel hf ec => ⟨if ((s.any fun cp => !isUrlCodePoint cp && cp != 37) || percentCheck 0 s) = true then
    some Err.validationError else ec, fun h => ?_, fun h => ?_⟩⟩
  · rw [parseHost, if_neg hb, if_pos rfl, hn fuel hf ec, if_pos h]
  · rw [parseHost, if_neg hb, if_pos rfl, hn fuel hf ec, if_neg h]

example : (utf8s [0x61, 0x25, 0xE9]).flatMap (unit .c0 false) = codes "a%%C3%A9" := by decide +kernel

/-- C75. Text that came out of the parser as an opaque host goes through it unchanged. -/
theorem C75_opaque_stable (toAscii : List Nat → Ec → List Nat × Ec) (s : List Nat) (h : CleanHost (.opaque s)) :
    ∃ n, ∀ fuel, n ≤ fuel → ∀ ec, ∃ ec', parseHost toAscii fuel s true ec = .stop (.opaque s, ec') := by
  have hr : ∀ c ∈ s, 0x20 ≤ c ∧ c ≤ 0x7E := fun c hc => by have := h c hc; omega
  have hb : s.head? ≠ some 0x5B := by
    intro hh
    cases s with
    | nil => simp at hh
    | cons c s =>
      have := h c (by simp)
      simp at hh
      subst hh
      rcases this.2.2 with h1 | h1
      · omega
      · exact h1 (by decide)
  obtain ⟨n, hn⟩ := C75_opaque toAscii s (fun c hc => scalar_of_lt (by have := hr c hc; omega)) hb
  refine ⟨n, fun fuel hf ec => ?_⟩
  obtain ⟨ec', _, h2⟩ := hn fuel hf ec
  refine ⟨ec', ?_⟩
  rw [h2, utf8s_ascii (fun c hc => by have := hr c hc; omega), flatMap_unit hr]
  rintro ⟨c, hc, h3, h4⟩
  exact (h c hc).2.2.elim h4 (fun h => h h3)

example : CleanHost (.opaque (codes "a%C3%A9")) := by unfold CleanHost; decide

/-- C75. The host of a special URL: percent decoding, UTF-8 decoding without malformed sequences, then what
`domain_to_ascii` makes of it, which is an address or a domain without forbidden code points. -/
theorem C75_domain (toAscii : List Nat → Ec → List Nat × Ec) (s : List Nat) (hs : ∀ c ∈ s, IsScalar c) (hne : s ≠ [])
    (hb : s.head? ≠ some 0x5B) (ec : Ec) :
    ∃ t o, Decodes (utf8s s) t ∧ Utf8Decodes t o ∧ ∃ n, ∀ fuel, n ≤ fuel → ∀ d e, toAscii (points o) ec = (d, e) →
      (∀ x, e = some x → parseHost toAscii fuel s false ec = .stop (.null, some x)) ∧
      (e = none → (∃ c ∈ d, Forbidden c) → parseHost toAscii fuel s false ec = .stop (.null, some .parseFailed)) ∧
      (e = none → (¬ ∃ c ∈ d, Forbidden c) → ∀ h e', parseIpv4 d none = some (h, e') →
        ((h = .null ∨ ∃ n, h = .ipv4 n) → parseHost toAscii fuel s false ec = .stop (h, e')) ∧
        (h = .opaque d → parseHost toAscii fuel s false ec = .stop (.domain d, e'))) ∧
      (e = none → (¬ ∃ c ∈ d, Forbidden c) → parseIpv4 d none = none → parseHost toAscii fuel s false ec = .ub) := by
  obtain ⟨t, ht, hd⟩ := Verif.Props.Percent.C42_string_decode s hs (s.length + 1) (by omega)
  have htb := decodes_byte hd (Verif.Proof.Utf8Report.utf8s_byte hs)
  obtain ⟨rs, s', h1, h2, h3⟩ := Verif.Proof.Utf8Report.decode_spec t htb
  refine ⟨t, _, hd, h1, s.length + 1 + 2 * t.length + 1, fun fuel hf d e hde => ?_⟩
  have ht' : Verif.Model.Percent.stringPercentDecode fuel s = .stop t := by
    obtain ⟨t', ht', _⟩ := Verif.Props.Percent.C42_string_decode s hs fuel (by omega)
    have e1 : Verif.Model.Percent.stringPercentDecode fuel s =
        Verif.Model.Percent.stringPercentDecode (s.length + 1) s := by
      unfold Verif.Model.Percent.stringPercentDecode
      have hle : ∀ c ∈ s, c ≤ 0x10FFFF := fun c hc => by have := hs c hc; unfold IsScalar at this; omega
      rw [Verif.Proof.Utf8Report.utf8Encode_eq s hle fuel (by omega),
        Verif.Proof.Utf8Report.utf8Encode_eq s hle (s.length + 1) (by omega)]
    rw [e1, ht]
  have hw := Verif.Proof.Utf8Report.withoutBom_eq t htb h1 fuel (by omega)
  have key : parseHost toAscii fuel s false ec =
      match (d, e) with
        | (_, some e) => .stop (.null, some e)
        | (asciiDomain, none) =>
          if asciiDomain.any isForbidden then .stop (.null, some .parseFailed) else
          match parseIpv4 asciiDomain none with
          | none => .ub
          | some (.null, ec) => .stop (.null, ec)
          | some (.ipv4 n, ec) => .stop (.ipv4 n, ec)
          | some (_, ec) => .stop (.domain asciiDomain, ec) := by
    unfold parseHost
    rw [if_neg hb, if_neg (by decide), if_neg hne, ht']
    dsimp only
    rw [hw]
    dsimp only
    rw [Verif.Proof.CoderRun.fromQueue_outAt, hde]
    cases e <;> rfl
  rw [key]
  refine ⟨?_, ?_, ?_, ?_⟩
  · rintro x rfl; rfl
  · rintro rfl h
    dsimp only
    rw [if_pos ((any_forbidden d).mpr h)]
  · rintro rfl h x e' hx
    dsimp only
    rw [if_neg (fun hh => h ((any_forbidden d).mp hh)), hx]
    refine ⟨?_, ?_⟩
    · rintro (rfl | ⟨n, rfl⟩) <;> rfl
    · rintro rfl; rfl
  · rintro rfl h hx
    dsimp only
    rw [if_neg (fun hh => h ((any_forbidden d).mp hh)), hx]

/-- `a%2Eb`, were `domain_to_ascii` the identity. -/
example : parseHost (fun d e => (d, e)) 50 (codes "a%2Eb") false none = .stop (.domain (codes "a.b"), none) := by decide +kernel

theorem parseIpv4_cases (s : List Nat) (ec ec' : Ec) (h : Host) (hp : parseIpv4 s ec = some (h, ec')) :
    h = .null ∨ h = .opaque s ∨ ∃ n, h = .ipv4 n ∧ n < 2 ^ 32 := by
  unfold parseIpv4 at hp
  dsimp only at hp
  split at hp
  · cases hp
  · rename_i parts _
    generalize (if parts.getLast? = some [] ∧ 1 < parts.length then parts.dropLast else parts) = ps at hp
    split at hp
    · injection hp with hp; injection hp with hp _; exact Or.inr (Or.inl hp.symm)
    · split at hp
      · cases hp
      · injection hp with hp; injection hp with hp _; exact Or.inr (Or.inl hp.symm)
      · rename_i numbers ve _
        split at hp
        · cases hp
        · rename_i back hback
          split at hp
          · injection hp with hp; injection hp with hp _; exact Or.inl hp.symm
          · split at hp
            · injection hp with hp; injection hp with hp _; exact Or.inl hp.symm
            · injection hp with hp; injection hp with hp _
              refine Or.inr (Or.inr ⟨_, hp.symm, ?_⟩)
              rename_i hlt
              have hback' : back < 2 ^ 32 := by
                have hne : numbers ≠ [] := by rintro rfl; simp at hback
                have := List.length_pos_iff.mpr hne
                have h1 : 256 ^ (5 - numbers.length) ≤ 256 ^ 4 := Nat.pow_le_pow_right (by omega) (by omega)
                omega
              have hadd : ∀ ns c x, x < 2 ^ 32 → addParts ns c x < 2 ^ 32 := by
                intro ns
                induction ns with
                | nil => intro c x hx; exact hx
                | cons n ns ih => intro c x hx; rw [addParts]; exact ih _ _ (Nat.mod_lt _ (by decide))
              exact hadd _ _ _ hback'

/-- C75. Whatever the parser returns is a clean host. -/
theorem C75_clean (toAscii : List Nat → Ec → List Nat × Ec) (s : List Nat) (hs : ∀ c ∈ s, IsScalar c) (b : Bool) (ec : Ec) :
    ∃ n, ∀ fuel, n ≤ fuel → parseHost toAscii fuel s b ec = .ub ∨
      ∃ h ec', parseHost toAscii fuel s b ec = .stop (h, ec') ∧ CleanHost h := by
  by_cases h6 : s.head? = some 0x5B
  · refine ⟨s.length, fun fuel hf => ?_⟩
    rw [parseHost, if_pos h6]
    by_cases hl : s.getLast? ≠ some 0x5D
    · rw [if_pos hl]; exact Or.inr ⟨_, _, rfl, trivial⟩
    rw [if_neg hl]
    by_cases hd : 0x2E ∈ (s.drop 1).dropLast
    · cases hr : parseIpv6 fuel (s.drop 1).dropLast ec with
      | ub => exact Or.inl rfl
      | more =>
        exfalso
        have hlen : (s.drop 1).dropLast.length ≤ fuel := by simp; omega
        exact parse_not_more fuel _ ec hlen hr
      | stop x =>
        obtain ⟨h, ec'⟩ := x
        refine Or.inr ⟨h, ec', rfl, ?_⟩
        rcases parse_kind fuel _ ec h ec' hr with rfl | ⟨a, rfl⟩
        · trivial
        · exact v6_bounds (parse_sound fuel _ ec ec' a hr)
    · obtain ⟨h, ec', h1, h2, _⟩ := parse_total fuel (s.drop 1).dropLast ec hd (by simp; omega)
      refine Or.inr ⟨h, ec', h1, ?_⟩
      rcases h2 with rfl | ⟨a, rfl⟩
      · trivial
      · exact v6_bounds (parse_sound fuel _ ec ec' a h1)
  · cases b with
    | true =>
      obtain ⟨n, hn⟩ := C75_opaque toAscii s hs h6
      refine ⟨n, fun fuel hf => Or.inr ?_⟩
      obtain ⟨ec', h1, h2⟩ := hn fuel hf ec
      by_cases hF : ∃ c ∈ s, Forbidden c ∧ c ≠ 0x25
      · exact ⟨_, _, h1 hF, trivial⟩
      · refine ⟨_, _, h2 hF, ?_⟩
        intro c hc
        exact opaque_clean s hs hF c hc
    | false =>
      by_cases hne : s = []
      · refine ⟨0, fun fuel _ => Or.inl ?_⟩
        rw [parseHost, if_neg h6, if_neg (by decide), if_pos hne]
      obtain ⟨t, o, _, _, n, hn⟩ := C75_domain toAscii s hs hne h6 ec
      refine ⟨n, fun fuel hf => ?_⟩
      obtain ⟨h1, h2, h3, h3'⟩ := hn fuel hf _ _ rfl
      cases he : (toAscii (points o) ec).2 with
      | some x => exact Or.inr ⟨_, _, h1 x he, trivial⟩
      | none =>
        by_cases hF : ∃ c ∈ (toAscii (points o) ec).1, Forbidden c
        · exact Or.inr ⟨_, _, h2 he hF, trivial⟩
        cases hp : parseIpv4 (toAscii (points o) ec).1 none with
        | none => exact Or.inl (h3' he hF hp)
        | some x =>
          obtain ⟨h, e'⟩ := x
          obtain ⟨h4, h5⟩ := h3 he hF h e' hp
          rcases parseIpv4_cases _ _ _ _ hp with rfl | rfl | ⟨n, rfl, hlt⟩
          · exact Or.inr ⟨_, _, h4 (Or.inl rfl), trivial⟩
          · exact Or.inr ⟨_, _, h5 rfl, fun c hc hf => hF ⟨c, hc, hf⟩⟩
          · exact Or.inr ⟨_, _, h4 (Or.inr ⟨n, rfl⟩), hlt⟩

/-- C75. Every host but the failure has a text. -/
theorem C75_serialized (h : Host) : serializeHost h = none ↔ h = .null := by cases h <;> simp [serializeHost]

/-- C75. The text of an IPv6 host, brackets included, is read back by the host parser, with the limit of `C45_partial`. -/
theorem C75_bracket (toAscii : List Nat → Ec → List Nat × Ec) (a : List Nat) (h8 : a.length = 8) (hv : ∀ v ∈ a, v < 65536)
    (hz : zeroRuns a ≤ 2) (b : Bool) (ec : Ec) : ∃ t, serializeHost (.ipv6 a) = some t ∧
      ∀ fuel, t.length ≤ fuel → parseHost toAscii fuel t b ec = .stop (.ipv6 a, ec) := by
  refine ⟨_, rfl, fun fuel hf => ?_⟩
  have hl : (0x5B :: (serializeIpv6 a ++ [0x5D])).getLast? = some 0x5D := by
    rw [← List.cons_append, List.getLast?_append]; rfl
  have hd : ((0x5B :: (serializeIpv6 a ++ [0x5D])).drop 1).dropLast = serializeIpv6 a := by simp
  have he : ∀ t, t = 0x5B :: (serializeIpv6 a ++ [0x5D]) → t.length ≤ fuel → parseHost toAscii fuel t b ec = .stop (.ipv6 a, ec) := by
    rintro t rfl hf
    rw [parseHost, if_pos (by rfl), if_neg (fun h => h hl), hd]
    exact (C45_partial a h8 hv hz).2 ec fuel (by simp at hf; omega)
  exact he _ (by simp) hf

/-! ### C76 valid IPv4 address strings -/

/-- Four decimal numbers up to 255 of at most four digits each. -/
def ValidV4 (s : List Nat) : Prop := (fields (· = 0x2E) s).length = 4 ∧
  ∀ p ∈ fields (· = 0x2E) s, p.length ≤ 4 ∧ ∃ n, Numeral 10 p n ∧ n ≤ 255

/-- C76, full statement. It is false of the code. -/
def C76_statement : Prop := ∀ s : List Nat, ∃ b, isValidIpv4AddressString s = some b ∧ (b = true ↔ ValidV4 s)

/-- C76. `a.b.c.d` reads the uninitialised variable, and `1x.1.1.1` is declared valid. -/
theorem C76_wrong : isValidIpv4AddressString (codes "a.b.c.d") = none ∧
    isValidIpv4AddressString (codes "1x.1.1.1") = some true := by decide

theorem C76_statement_false : ¬ C76_statement := by
  intro h
  obtain ⟨b, h1, _⟩ := h (codes "a.b.c.d")
  rw [C76_wrong.1] at h1
  cases h1

/-- C76, partial: text of digits and dots. Missing: everything else. -/
theorem C76_partial (s : List Nat) (h : ∀ c ∈ s, c = 0x2E ∨ (0x30 ≤ c ∧ c ≤ 0x39)) :
    ∃ b, isValidIpv4AddressString s = some b ∧ (b = true ↔ ValidV4 s) := by
  have hj := Verif.Props.Infra.C30_fields_spec 0x2E s
  have hd : ∀ p ∈ fields (· = 0x2E) s, ∀ c ∈ p, 0x30 ≤ c ∧ c ≤ 0x39 := by
    intro p hp c hc
    have hm : c ∈ s := by rw [← hj.1]; exact mem_join hp hc
    rcases h c hm with rfl | h
    · exact absurd hc (hj.2 p hp)
    · exact h
  unfold isValidIpv4AddressString ValidV4
  rw [splitDots_fields]
  dsimp only
  by_cases h4 : (fields (· = 0x2E) s).length = 4
  · rw [if_neg (fun hh => hh h4)]
    obtain ⟨b, h1, h2⟩ := validParts_eq _ hd
    exact ⟨b, h1, by rw [h2]; exact ⟨fun x => ⟨h4, x⟩, fun x => x.2⟩⟩
  · rw [if_pos h4]
    exact ⟨false, rfl, by simp [h4]⟩

example : isValidIpv4AddressString (codes "192.168.0.1") = some true ∧
    isValidIpv4AddressString (codes "192.168.0.256") = some false := by decide

end Verif.Props.Host
