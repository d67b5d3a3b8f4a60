import Verif.Props.Host
import Mathlib.Tactic.ByContra
import Mathlib.Tactic.SplitIfs
/- What the calls made by the URL parser return, with bounds on the iterations. -/
namespace Verif.Proof.UrlInner
open Verif.Model.Infra Verif.Model.Coder Verif.Model.Legacy Verif.Model.Percent Verif.Model.Host
open Verif.Spec Verif.Spec.Percent Verif.Spec.Host
open Verif.Proof.Percent Verif.Proof.Utf8Coder Verif.Proof.CoderRun Verif.Proof.LegacyRun Verif.Proof.LegacyApi Verif.Proof.Utf8Report Verif.Proof.HostParse
open Verif.Props.Percent Verif.Props.Host

/-! ### Percent encoding -/

/-- The percent-encoded form of a string in UTF-8. -/
def enc8 (p : PSet) (s : List Nat) : List Nat := s.flatMap fun c => (utf8 c).flatMap (unit p false)

theorem enc8_append (p : PSet) (s t : List Nat) : enc8 p (s ++ t) = enc8 p s ++ enc8 p t := by simp [enc8]

theorem utf8_enc (s : List Nat) (h : ∀ c ∈ s, IsScalar c) (p : PSet) (fuel : Nat) (hf : s.length < fuel) :
    utf8PercentEncode fuel s (setOf p) = .stop (enc8 p s) := by
  have hle : ∀ c ∈ s, c ≤ 0x10FFFF := fun c hc => by have := h c hc; unfold IsScalar at this; omega
  have := loop_plain utf8_plain writes_utf8 (C42_sets p) false (fun c => (utf8 c).flatMap (unit p false)) fuel fuel s [] hf hf
    (fun c hc => by rw [run_encode (hle c hc)]; simp)
    (fun c hc bs e => by rw [run_encode (hle c hc)] at e; injection e with e; injection e with e; injection e with e; rw [e])
    (fun c hc cp e => by rw [run_encode (hle c hc)] at e; injection e with e; injection e with e; cases e)
  unfold utf8PercentEncode percentEncodeAfterEncoding
  rw [show encoderOf .UTF_8 = some ⟨Unit, (), utf8E⟩ from rfl]
  dsimp only
  rw [toQueue_eq, show (s.map Item.val ++ [Item.eoq]) = qq s from rfl, this]
  rfl

theorem cp_enc (c : Nat) (h : IsScalar c) (p : PSet) (fuel : Nat) (hf : 2 ≤ fuel) :
    utf8PercentEncodeCp fuel c (setOf p) = .stop (enc8 p [c]) :=
  utf8_enc [c] (by simpa using h) p fuel (by simp; omega)

theorem unit_clean (p : PSet) (hp : p ≠ .component ∧ p ≠ .form) (b : Nat) (h : b < 256) : ∀ c ∈ unit p false b, ¬ InSet p c ∧ 0x20 ≤ c ∧ c ≤ 0x7E := by
  have : (List.range 256).all (fun b => (unit p false b).all fun c => decide (¬ InSet p c ∧ 0x20 ≤ c ∧ c ≤ 0x7E)) = true := by
    cases p <;> first | exact absurd rfl hp.1 | exact absurd rfl hp.2 | decide +kernel
  intro c hc
  exact of_decide_eq_true (List.all_eq_true.mp (List.all_eq_true.mp this b (List.mem_range.mpr h)) c hc)

theorem reference_clean (p : PSet) (hp : p ≠ .component ∧ p ≠ .form) (n : Nat) : ∀ c ∈ reference n, ¬ InSet p c ∧ 0x20 ≤ c ∧ c ≤ 0x7E := by
  intro c hc
  have h1 : ∀ c ∈ codes "%26%23", ¬ InSet p c ∧ 0x20 ≤ c ∧ c ≤ 0x7E := by
    cases p <;> first | exact absurd rfl hp.1 | exact absurd rfl hp.2 | decide +kernel
  have h2 : ∀ c ∈ codes "%3B", ¬ InSet p c ∧ 0x20 ≤ c ∧ c ≤ 0x7E := by
    cases p <;> first | exact absurd rfl hp.1 | exact absurd rfl hp.2 | decide +kernel
  have h3 : ∀ c < 0x3A, 0x30 ≤ c → ¬ InSet p c ∧ 0x20 ≤ c ∧ c ≤ 0x7E := by
    cases p <;> first | exact absurd rfl hp.1 | exact absurd rfl hp.2 | decide +kernel
  unfold reference at hc
  rcases List.mem_append.mp hc with hc | hc
  · rcases List.mem_append.mp hc with hc | hc
    · exact h1 c hc
    · have : ∀ c ∈ decimal n, 0x30 ≤ c ∧ c ≤ 0x39 := by
        intro c hc
        rw [← Verif.Proof.Digits.toChars_decimal] at hc
        exact Verif.Proof.Digits.toChars_digit n c hc
      have := this c hc
      exact h3 c (by omega) this.1
  · exact h2 c hc

theorem enc8_clean (p : PSet) (hp : p ≠ .component ∧ p ≠ .form) (s : List Nat) (h : ∀ c ∈ s, IsScalar c) :
    ∀ c ∈ enc8 p s, ¬ InSet p c ∧ 0x20 ≤ c ∧ c ≤ 0x7E := by
  intro c hc
  obtain ⟨x, hx, hc⟩ := List.mem_flatMap.mp hc
  obtain ⟨b, hb, hc⟩ := List.mem_flatMap.mp hc
  exact unit_clean p hp b (utf8s_byte (s := [x]) (by simpa using h x hx) b (by simpa [utf8s] using hb)) c hc

/-- A character of the encoded text is a character of the text, or comes from an escape sequence. -/
theorem enc8_mem (p : PSet) (s : List Nat) (h : ∀ c ∈ s, IsScalar c) (c : Nat) (hc : c ∈ enc8 p s) :
    c ∈ s ∨ c = 0x25 ∨ (0x30 ≤ c ∧ c ≤ 0x39) ∨ (0x41 ≤ c ∧ c ≤ 0x46) := by
  obtain ⟨x, hx, hc⟩ := List.mem_flatMap.mp hc
  obtain ⟨b, hb, hc⟩ := List.mem_flatMap.mp hc
  have hlt : b < 256 := utf8s_byte (s := [x]) (by simpa using h x hx) b (by simpa [utf8s] using hb)
  unfold unit at hc
  rw [if_neg (by simp)] at hc
  by_cases hi : InSet p b
  · rw [if_pos hi] at hc
    right
    simp only [escape, List.map_cons, List.map_nil, List.mem_cons, List.not_mem_nil, or_false] at hc
    rcases hc with rfl | rfl | rfl
    · exact Or.inl rfl
    · right; split <;> omega
    · right; split <;> omega
  · rw [if_neg hi] at hc
    obtain rfl := List.mem_singleton.mp hc
    left
    have h7 : c ≤ 0x7E := by unfold InSet at hi; omega
    unfold utf8 at hb
    split at hb
    · obtain rfl := List.mem_singleton.mp hb; exact hx
    · exfalso
      have := h x hx
      unfold IsScalar at this
      repeat' split at hb
      all_goals
        simp only [List.mem_cons, List.not_mem_nil, or_false] at hb
        omega

theorem enc8_ne_nil (p : PSet) (s : List Nat) (h : s ≠ []) : enc8 p s ≠ [] := by
  cases s with
  | nil => exact absurd rfl h
  | cons c s =>
    unfold enc8
    rw [List.flatMap_cons]
    have : utf8 c ≠ [] := utf8_ne_nil c
    cases hu : utf8 c with
    | nil => exact absurd hu this
    | cons b bs =>
      rw [List.flatMap_cons]
      have : unit p false b ≠ [] := by unfold unit; rw [if_neg (by simp)]; split <;> simp [escape]
      simp [this]

/-! ### Encoding a query -/

theorem run_ub {enc : Run Unit} (hp : Plain enc) (s : List Nat) (hu : ∃ c ∈ s, enc () (.val c) = none) (fuel : Nat)
    (hf : s.length < fuel) (o : List Nat) :
    processQueue false enc .fatal fuel () (qq s) (outAt o false) = .ub ∨
    ∃ s1 c s2 cp o', s = s1 ++ c :: s2 ∧ (∃ c ∈ s2, enc () (.val c) = none) ∧
      processQueue false enc .fatal fuel () (qq s) (outAt o false) = .stop (.error cp, (), qq s2, outAt o' false) := by
  induction s generalizing fuel o with
  | nil => simp at hu
  | cons c s ih =>
    obtain ⟨k, rfl⟩ : ∃ k, fuel = k + 1 := ⟨fuel - 1, by simp at hf; omega⟩
    rcases hp.2 c with e | ⟨bs, e⟩ | ⟨cp, e⟩
    · left
      rw [processQueue, read_cons]
      dsimp only
      rw [processItem, e]
    · have step : processQueue false enc .fatal (k + 1) () (qq (c :: s)) (outAt o false) =
          processQueue false enc .fatal k () (qq s) (outAt (o ++ bs) false) := by
        rw [processQueue, read_cons]
        dsimp only
        rw [processItem_cont (qq s) o false e (by simp) (Or.inr (by simp))]
        dsimp only
        rw [if_pos rfl]
        rfl
      rw [step]
      have hu' : ∃ c ∈ s, enc () (.val c) = none := by
        obtain ⟨d, hd, he⟩ := hu
        rcases List.mem_cons.mp hd with rfl | hd
        · rw [e] at he; cases he
        · exact ⟨d, hd, he⟩
      rcases ih hu' k (by simp at hf; omega) (o ++ bs) with h | ⟨s1, d, s2, cp, o', g1, g2, g3⟩
      · exact Or.inl h
      · exact Or.inr ⟨c :: s1, d, s2, cp, o', by simp [g1], g2, g3⟩
    · refine Or.inr ⟨[], c, s, cp, o, rfl, ?_, by rw [processQueue_fatal (read_cons c s) e]; rfl⟩
      obtain ⟨d, hd, he⟩ := hu
      rcases List.mem_cons.mp hd with rfl | hd
      · rw [e] at he; cases he
      · exact ⟨d, hd, he⟩

theorem loop_ub {enc : Run Unit} (hp : Plain enc) (set : Nat → Bool) (plus : Bool) (fuel : Nat) : ∀ (n : Nat) (s output : List Nat),
    s.length < n → s.length < fuel → (∃ c ∈ s, enc () (.val c) = none) →
    encodeLoop fuel ⟨Unit, (), enc⟩ set plus n (qq s) output = .ub
  | 0, s, output => by intro h; omega
  | n + 1, s, output => by
    intro hn hf hu
    rw [encodeLoop]
    rcases run_ub hp s hu fuel hf [] with h | ⟨s1, c, s2, cp, o', g1, g2, g3⟩
    · have e : encodeOrFail fuel (qq s) ⟨Unit, (), enc⟩ [] = .ub := by
        unfold encodeOrFail runCoder
        rw [nil_outAt]; dsimp only; rw [h]
      rw [e]
    · have e : encodeOrFail fuel (qq s) ⟨Unit, (), enc⟩ [] = .stop (.error cp, qq s2, outAt o' true) := by
        unfold encodeOrFail runCoder
        rw [nil_outAt]; dsimp only; rw [g3]; dsimp only
        rw [push_eoq]
      rw [e]
      dsimp only
      cases encodeBytes set plus (fromQueue (outAt o' true)) with
      | none => rfl
      | some o =>
        dsimp only
        subst g1
        simp only [List.length_append, List.length_cons] at hn hf
        exact loop_ub hp set plus fuel n s2 _ (by omega) (by omega) g2

/-- Encoding a query ends, with text that needs no further encoding. -/
theorem query_enc (e : Enc) (he : e ≠ .ISO_2022_JP) (s : List Nat) (p : PSet) (hp : p ≠ .component ∧ p ≠ .form) (fuel : Nat)
    (hf : s.length < fuel) :
    percentEncodeAfterEncoding fuel e s (setOf p) false = .ub ∨ ∃ t, percentEncodeAfterEncoding fuel e s (setOf p) false = .stop t ∧
      ∀ c ∈ t, ¬ InSet p c ∧ 0x20 ≤ c ∧ c ≤ 0x7E := by
  unfold percentEncodeAfterEncoding
  cases hk : encoderOf e with
  | none => exact Or.inl rfl
  | some k =>
    obtain ⟨enc, rfl, hpl⟩ := plain_encoder hk he
    have hw : Writes enc := writes_encoder hk
    dsimp only
    rw [toQueue_eq, show (s.map Item.val ++ [Item.eoq]) = qq s from rfl]
    by_cases hu : ∃ c ∈ s, enc () (.val c) = none
    · exact Or.inl (loop_ub hpl _ _ fuel fuel s [] hf hf hu)
    · right
      let g : Nat → List Nat := fun c => match enc () (.val c) with
        | some (.bytes bs, (), []) => bs.flatMap (unit p false)
        | some (.error cp, (), []) => reference cp
        | _ => []
      refine ⟨_, loop_plain hpl hw (C42_sets p) false g fuel fuel s [] hf hf (fun c hc h => hu ⟨c, hc, h⟩)
        (fun c _ bs h => by simp only [g, h]) (fun c _ cp h => by simp only [g, h]), ?_⟩
      intro c hc
      rw [List.nil_append] at hc
      obtain ⟨x, hx, hc⟩ := List.mem_flatMap.mp hc
      rcases hpl.2 x with h | ⟨bs, h⟩ | ⟨cp, h⟩
      · exact absurd ⟨x, hx, h⟩ hu
      · simp only [g, h] at hc
        obtain ⟨b, hb, hc⟩ := List.mem_flatMap.mp hc
        exact unit_clean p hp b ((hw _ _ _ _ _ h).2 bs rfl b hb) c hc
      · simp only [g, h] at hc
        exact reference_clean p hp cp c hc

/-! ### Hosts -/

/-- What `parse_host` may return. -/
inductive HostResult (toAscii : List Nat → Ec → List Nat × Ec) (s : List Nat) (notSpecial : Bool) (ec : Ec) : Host → Prop
  | null : HostResult toAscii s notSpecial ec .null
  | ipv6 (a : List Nat) : a.length = 8 → (∀ v ∈ a, v < 65536) → HostResult toAscii s notSpecial ec (.ipv6 a)
  | text : notSpecial = true → (¬ ∃ c ∈ s, Forbidden c ∧ c ≠ 0x25) → HostResult toAscii s notSpecial ec (.opaque (enc8 .c0 s))
  | ipv4 (n : Nat) : notSpecial = false → s ≠ [] → n < 2 ^ 32 → HostResult toAscii s notSpecial ec (.ipv4 n)
  | domain (q d : List Nat) (e : Ec) : notSpecial = false → s ≠ [] → toAscii q ec = (d, none) → (∀ c ∈ d, ¬ Forbidden c) →
      parseIpv4 d none = some (.opaque d, e) → HostResult toAscii s notSpecial ec (.domain d)

theorem host_ends (toAscii : List Nat → Ec → List Nat × Ec) (s : List Nat) (hs : ∀ c ∈ s, IsScalar c) (b : Bool) (ec : Ec)
    (fuel : Nat) (hf : 9 * s.length + 9 ≤ fuel) :
    parseHost toAscii fuel s b ec = .ub ∨
      ∃ h ec', parseHost toAscii fuel s b ec = .stop (h, ec') ∧ HostResult toAscii s b ec h := by
  by_cases h6 : s.head? = some 0x5B
  · rw [parseHost, if_pos h6]
    by_cases hl : s.getLast? ≠ some 0x5D
    · rw [if_pos hl]; exact Or.inr ⟨_, _, rfl, .null⟩
    rw [if_neg hl]
    cases hr : parseIpv6 fuel (s.drop 1).dropLast ec with
    | ub => exact Or.inl rfl
    | more =>
      exfalso
      have hlen : (s.drop 1).dropLast.length ≤ fuel := by simp; omega
      exact parse_not_more fuel _ ec hlen hr
    | stop x =>
      obtain ⟨h, ec'⟩ := x
      refine Or.inr ⟨h, ec', rfl, ?_⟩
      rcases parse_kind fuel _ ec h ec' hr with rfl | ⟨a, rfl⟩
      · exact .null
      · have := v6_bounds (Verif.Proof.Host6.parse_sound fuel _ ec ec' a hr)
        exact .ipv6 a this.1 this.2
  · cases b with
    | true =>
      rw [parseHost, if_neg h6, if_pos rfl]
      unfold parseOpaqueHost
      have h1 : (s.any (fun cp => isForbidden cp && cp != 0x25) = true) ↔ ∃ c ∈ s, Forbidden c ∧ c ≠ 0x25 := by
        rw [List.any_eq_true]; simp [forbidden_iff]
      by_cases h : ∃ c ∈ s, Forbidden c ∧ c ≠ 0x25
      · rw [if_pos (h1.mpr h)]; exact Or.inr ⟨_, _, rfl, .null⟩
      · rw [if_neg (fun hh => h (h1.mp hh))]
        have := utf8_enc s hs .c0 fuel (by omega)
        rw [show setOf .c0 = isC0ControlSet from rfl] at this
        rw [this]
        exact Or.inr ⟨_, _, rfl, .text rfl h⟩
    | false =>
      by_cases hne : s = []
      · exact Or.inl (by rw [parseHost, if_neg h6, if_neg (by decide), if_pos hne])
      obtain ⟨t, ht, hd⟩ := C42_string_decode s hs fuel (by omega)
      have htb := decodes_byte hd (utf8s_byte hs)
      obtain ⟨rs, s', h1, h2, h3⟩ := decode_spec t htb
      have hlen : t.length ≤ 4 * s.length := by
        have a1 : ∀ {u v : List Nat}, Decodes u v → v.length ≤ u.length := by
          intro u v h
          induction h with
          | nil => simp
          | escape _ _ _ ih => simp; omega
          | keep _ _ ih => simp; omega
        have a2 : (utf8s s).length ≤ 4 * s.length := by
          clear hs hf h6 hne ht hd htb h1 h2 h3
          unfold utf8s
          induction s with
          | nil => simp
          | cons c s ih =>
            have : (utf8 c).length ≤ 4 := by unfold utf8; split_ifs <;> simp
            rw [List.flatMap_cons, List.length_append, List.length_cons]
            omega
        have := a1 hd
        omega
      have hw := withoutBom_eq t htb h1 fuel (by omega)
      have key : parseHost toAscii fuel s false ec =
          match toAscii (points (report rs)) ec with
            | (_, some e) => .stop (.null, some e)
            | (asciiDomain, none) =>
              if asciiDomain.any isForbidden then .stop (.null, some .parseFailed) else
              match parseIpv4 asciiDomain none with
              | none => .ub
              | some (.null, ec) => .stop (.null, ec)
              | some (.ipv4 n, ec) => .stop (.ipv4 n, ec)
              | some (_, ec) => .stop (.domain asciiDomain, ec) := by
        unfold parseHost
        rw [if_neg h6, if_neg (by decide), if_neg hne, ht]
        dsimp only
        rw [hw]
        dsimp only
        rw [fromQueue_outAt]
        cases hh : toAscii (points (report rs)) ec with
        | mk d e => cases e <;> rfl
      rw [key]
      cases hh : toAscii (points (report rs)) ec with
      | mk d e =>
        cases e with
        | some x => exact Or.inr ⟨_, _, rfl, .null⟩
        | none =>
          dsimp only
          by_cases hF : d.any isForbidden = true
          · rw [if_pos hF]; exact Or.inr ⟨_, _, rfl, .null⟩
          rw [if_neg hF]
          have hF' : ∀ c ∈ d, ¬ Forbidden c := fun c hc h => hF ((any_forbidden d).mpr ⟨c, hc, h⟩)
          cases hp : parseIpv4 d none with
          | none => exact Or.inl rfl
          | some x =>
            obtain ⟨h, e'⟩ := x
            rcases parseIpv4_cases _ _ _ _ hp with rfl | rfl | ⟨n, rfl, hlt⟩
            · exact Or.inr ⟨_, _, rfl, .null⟩
            · exact Or.inr ⟨_, _, rfl, .domain _ _ _ rfl hne hh hF' hp⟩
            · exact Or.inr ⟨_, _, rfl, .ipv4 n rfl hne hlt⟩

theorem result_clean {toAscii : List Nat → Ec → List Nat × Ec} {s : List Nat} {b : Bool} {ec : Ec} {h : Host}
    (hs : ∀ c ∈ s, IsScalar c) (hr : HostResult toAscii s b ec h) : CleanHost h := by
  cases hr with
  | null => trivial
  | ipv6 a h1 h2 => exact ⟨h1, h2⟩
  | text _ h =>
    intro c hc
    have e : enc8 .c0 s = (utf8s s).flatMap (unit .c0 false) := by simp [enc8, utf8s, List.flatMap_assoc]
    rw [e] at hc
    exact opaque_clean s hs h c hc
  | ipv4 n _ _ h => exact h
  | domain q d e _ _ _ h _ => exact h

end Verif.Proof.UrlInner
