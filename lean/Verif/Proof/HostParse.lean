import Verif.Proof.Host6Text
import Verif.Props.Percent
namespace Verif.Proof.HostParse
open Verif.Model.Infra Verif.Model.Unicode Verif.Model.Coder Verif.Model.Percent Verif.Model.Host
open Verif.Spec Verif.Spec.Infra Verif.Spec.Percent Verif.Spec.Host Verif.Proof.Digits Verif.Proof.Host4 Verif.Proof.Host6
open Verif.Proof.Utf8Report Verif.Proof.Percent Verif.Proof.CoderRun Verif.Props.Percent

theorem fromChars_lt (p : List Nat) (h : ∀ c ∈ p, isAsciiHexDigit c = true) : fromChars 16 p < 16 ^ p.length := by
  induction p using List.reverseRecOn with
  | nil => simp [fromChars]
  | append_singleton p c ih =>
    have h1 := ih fun x hx => h x (by simp [hx])
    have h2 : isDigitOf 16 c = true := by rw [isDigitOf16]; exact h c (by simp)
    simp only [isDigitOf, Bool.and_eq_true, decide_eq_true_eq] at h2
    rw [fromChars_append, List.length_append, List.length_singleton, Nat.pow_succ]
    omega

theorem piece_lt {p : List Nat} {v : Nat} (h : Piece p v) : v < 65536 := by
  obtain ⟨h1, h2, rfl, h4⟩ := (piece_iff p v).mp h
  have := fromChars_lt p h2
  have h5 : 16 ^ p.length ≤ 16 ^ 4 := Nat.pow_le_pow_right (by omega) h4
  omega

theorem pieces_lt {ps : List (List Nat)} {vs : List Nat} (h : Pieces ps vs) : ∀ v ∈ vs, v < 65536 := by
  induction h with
  | nil => simp
  | cons h _ ih =>
    intro v hv
    rcases List.mem_cons.mp hv with rfl | hv
    · exact piece_lt h
    · exact ih v hv
  | quad h =>
    intro v hv
    simp only [List.mem_cons, List.not_mem_nil, or_false] at hv
    omega

theorem v6_bounds {s a : List Nat} (h : V6 s a) : a.length = 8 ∧ ∀ v ∈ a, v < 65536 := by
  cases h with
  | full hp h8 => exact ⟨h8, pieces_lt hp⟩
  | short hl hr h7 =>
    refine ⟨by simp; omega, fun v hv => ?_⟩
    simp only [List.mem_append] at hv
    rcases hv with (hv | hv) | hv
    · exact pieces_lt (pieces_of_forall₂ hl) v hv
    · rw [List.eq_of_mem_replicate hv]; omega
    · exact pieces_lt hr v hv

theorem decodes_byte {s t : List Nat} (h : Decodes s t) (hs : ∀ c ∈ s, c < 256) : ∀ c ∈ t, c < 256 := by
  induction h with
  | nil => simp
  | escape ha hb _ ih =>
    intro c hc
    rcases List.mem_cons.mp hc with rfl | hc
    · unfold HexDigit at ha hb; omega
    · exact ih (fun x hx => hs x (by simp [hx])) c hc
  | keep _ _ ih =>
    intro c hc
    rcases List.mem_cons.mp hc with rfl | hc
    · exact hs c (by simp)
    · exact ih (fun x hx => hs x (by simp [hx])) c hc

theorem forbidden_iff (c : Nat) : isForbidden c = true ↔ Forbidden c := by
  have e : ([0x00, 0x09, 0x0A, 0x0D] ++ codes " #%/:?@[\\]" : List Nat) =
      [0x00, 0x09, 0x0A, 0x0D, 0x20, 0x23, 0x25, 0x2F, 0x3A, 0x3F, 0x40, 0x5B, 0x5C, 0x5D] := by decide
  unfold isForbidden Forbidden
  rw [e, List.contains_iff_mem]

theorem any_forbidden (s : List Nat) : s.any isForbidden = true ↔ ∃ c ∈ s, Forbidden c := by
  rw [List.any_eq_true]; simp only [forbidden_iff]

theorem opaque_eq (s : List Nat) (hs : ∀ c ∈ s, IsScalar c) : ∃ n, ∀ fuel, n ≤ fuel → ∀ ec,
    parseOpaqueHost fuel s ec = if ∃ c ∈ s, Forbidden c ∧ c ≠ 0x25 then .stop (.null, some .validationError) else
      .stop (.opaque ((utf8s s).flatMap (unit .c0 false)),
        if (s.any (fun cp => !isUrlCodePoint cp && cp != 0x25) || percentCheck 0 s) then some .validationError else ec) := by
  obtain ⟨n, hn⟩ := C42_utf8 s hs .c0
  refine ⟨n, fun fuel hf ec => ?_⟩
  unfold parseOpaqueHost
  have h1 : (s.any (fun cp => isForbidden cp && cp != 0x25) = true) ↔ ∃ c ∈ s, Forbidden c ∧ c ≠ 0x25 := by
    rw [List.any_eq_true]; simp [forbidden_iff]
  by_cases h : ∃ c ∈ s, Forbidden c ∧ c ≠ 0x25
  · rw [if_pos h, if_pos (h1.mpr h)]
  · rw [if_neg h, if_neg (fun hh => h (h1.mp hh))]
    have := hn fuel hf
    rw [show setOf .c0 = isC0ControlSet from rfl] at this
    rw [this]
    dsimp only
    cases hb : percentCheck 0 s <;> cases s.any (fun cp => !isUrlCodePoint cp && cp != 0x25) <;> simp

theorem splitDots_eq (cur s : List Nat) :
    splitDots cur s = (cur ++ (fields (· = 0x2E) s).headD []) :: (fields (· = 0x2E) s).tail := by
  induction s generalizing cur with
  | nil => simp [splitDots, fields]
  | cons c s ih =>
    rw [splitDots, fields]
    by_cases h : c = 0x2E
    · rw [if_pos h, if_pos h, ih]
      have := Verif.Proof.Infra.fields_ne_nil (· = 0x2E) s
      cases hf : fields (· = 0x2E) s with
      | nil => exact absurd hf this
      | cons f fs => simp
    · rw [if_neg h, if_neg h, ih]
      have := Verif.Proof.Infra.fields_ne_nil (· = 0x2E) s
      cases hf : fields (· = 0x2E) s with
      | nil => exact absurd hf this
      | cons f fs => simp

theorem splitDots_fields (s : List Nat) : splitDots [] s = fields (· = 0x2E) s := by
  rw [splitDots_eq]
  have := Verif.Proof.Infra.fields_ne_nil (· = 0x2E) s
  cases hf : fields (· = 0x2E) s with
  | nil => exact absurd hf this
  | cons f fs => simp

theorem numeral10_lt {s : List Nat} {n : Nat} (h : Numeral 10 s n) : n < 10 ^ s.length := by
  induction h with
  | one _ h => simpa using h
  | snoc _ _ h ih => rw [List.length_append, List.length_singleton, Nat.pow_succ]; omega

theorem validParts_eq (v : List (List Nat)) (h : ∀ p ∈ v, ∀ c ∈ p, 0x30 ≤ c ∧ c ≤ 0x39) :
    ∃ b, validParts v = some b ∧ (b = true ↔ ∀ p ∈ v, p.length ≤ 4 ∧ ∃ n, Numeral 10 p n ∧ n ≤ 255) := by
  induction v with
  | nil => exact ⟨true, rfl, by simp⟩
  | cons p v ih =>
    obtain ⟨b, h1, h2⟩ := ih fun q hq => h q (by simp [hq])
    have hd := h p (by simp)
    rw [validParts]
    by_cases hl : 1 ≤ p.length ∧ p.length ≤ 4
    · rw [if_neg (fun hh => hh hl)]
      have hp : p ≠ [] := by rintro rfl; simp at hl
      have hdig : ∀ c ∈ p, isDigitOf 10 c = true := by
        intro c hc
        have := hd c hc
        have hall : ∀ c < 0x3A, 0x30 ≤ c → isDigitOf 10 c = true := by decide
        exact hall c (by omega) this.1
      have hN : Numeral 10 p (fromChars 10 p) := (numeral_iff _ _ _).mpr ⟨hp, hdig, rfl⟩
      have hlt := numeral10_lt hN
      have h10 : 10 ^ p.length ≤ 10 ^ 4 := Nat.pow_le_pow_right (by omega) hl.2
      rw [map_mod (fun c hc => by have := hd c hc; omega), fromChars32_eq hp hdig, if_pos (by omega)]
      dsimp only
      by_cases h255 : 255 < fromChars 10 p
      · refine ⟨false, by rw [if_pos h255], ?_⟩
        simp only [Bool.false_eq_true, false_iff]
        intro hh
        obtain ⟨_, n, hn, hn'⟩ := hh p (by simp)
        have := ((numeral_iff _ _ _).mp hn).2.2
        omega
      · refine ⟨b, by rw [if_neg h255, h1], ?_⟩
        rw [h2]
        constructor
        · intro hh q hq
          rcases List.mem_cons.mp hq with rfl | hq
          · exact ⟨hl.2, _, hN, by omega⟩
          · exact hh q hq
        · intro hh q hq
          exact hh q (by simp [hq])
    · refine ⟨false, by rw [if_pos hl], ?_⟩
      simp only [Bool.false_eq_true, false_iff]
      intro hh
      obtain ⟨h4, n, hn, _⟩ := hh p (by simp)
      have := List.length_pos_iff.mpr ((numeral_iff _ _ _).mp hn).1
      omega

theorem unit_c0 {c : Nat} (h : 0x20 ≤ c ∧ c ≤ 0x7E) : unit .c0 false c = [c] := by
  unfold unit
  rw [if_neg (by simp), if_neg]
  unfold InSet
  have : codes (printable .c0) = [] := by decide
  rw [this]
  simp
  omega

theorem utf8s_ascii {s : List Nat} (h : ∀ c ∈ s, c < 0x80) : utf8s s = s := by
  induction s with
  | nil => rfl
  | cons c s ih =>
    have hc := h c (by simp)
    have := ih fun x hx => h x (by simp [hx])
    unfold utf8s at this ⊢
    rw [List.flatMap_cons, this]
    simp [utf8, hc]

theorem flatMap_unit {s : List Nat} (h : ∀ c ∈ s, 0x20 ≤ c ∧ c ≤ 0x7E) : s.flatMap (unit .c0 false) = s := by
  induction s with
  | nil => rfl
  | cons c s ih => rw [List.flatMap_cons, unit_c0 (h c (by simp)), ih fun x hx => h x (by simp [hx])]; rfl

theorem mem_join {d : Nat} {ps : List (List Nat)} {p : List Nat} {c : Nat} (hp : p ∈ ps) (hc : c ∈ p) : c ∈ join d ps := by
  induction ps with
  | nil => cases hp
  | cons q ps ih =>
    cases ps with
    | nil =>
      obtain rfl := List.mem_singleton.mp hp
      exact hc
    | cons r ps =>
      rw [join]
      · rcases List.mem_cons.mp hp with rfl | hp
        · simp [hc]
        · simp [ih hp]
      · simp

theorem loop_kind (ec : Ec) (fuel : Nat) : ∀ (a : List Nat) (i : Nat) (cp : Option Nat) (s : List Nat),
    (s.length ≤ fuel → ipv6Loop ec fuel a i cp s ≠ .more) ∧
    ∀ h ec', ipv6Loop ec fuel a i cp s = .stop (h, ec') → h = .null ∨ ∃ a, h = .ipv6 a := by
  have fin : ∀ a i cp h ec', Ends.stop (finishIpv6 a i cp ec) = .stop (h, ec') → h = .null ∨ ∃ a, h = .ipv6 a := by
    intro a i cp h ec' hh
    unfold finishIpv6 at hh
    cases cp with
    | some c => cases hh; exact Or.inr ⟨_, rfl⟩
    | none =>
      dsimp only at hh
      split at hh <;> cases hh
      · exact Or.inl rfl
      · exact Or.inr ⟨_, rfl⟩
  have nul : ∀ (e : Ec) h ec', Ends.stop (Host.null, e) = .stop (h, ec') → h = .null ∨ ∃ a, h = .ipv6 a := by
    intro e h ec' hh; cases hh; exact Or.inl rfl
  induction fuel with
  | zero =>
    intro a i cp s
    cases s with
    | nil => rw [loop_nil]; exact ⟨fun _ hh => (by cases hh), fin a i cp⟩
    | cons c s => exact ⟨fun hl => by simp at hl, fun h ec' hh => by cases hh⟩
  | succ fuel ih =>
    intro a i cp s
    cases s with
    | nil => rw [loop_nil]; exact ⟨fun _ hh => (by cases hh), fin a i cp⟩
    | cons c s =>
      rw [loop_cons]
      by_cases h8 : i = 8
      · rw [if_pos h8]; exact ⟨fun _ hh => (by cases hh), nul _⟩
      rw [if_neg h8]
      by_cases hc : c = 0x3A
      · rw [if_pos hc]
        cases cp with
        | some _ => exact ⟨fun _ hh => (by cases hh), nul _⟩
        | none =>
          obtain ⟨h1, h2⟩ := ih a (i + 1) (some (i + 1)) s
          exact ⟨fun hl => h1 (by simp at hl; omega), h2⟩
      rw [if_neg hc]
      obtain ⟨p, r, h1, h2, h3, h4⟩ := readPiece_inv (c :: s) 0 0 (by omega)
      rw [h4]
      dsimp only
      cases r with
      | nil =>
        obtain ⟨h1, h2⟩ := ih (a.set i (p.foldl (fun n c => n * 16 + digitVal c) 0)) (i + 1) cp []
        exact ⟨fun hl => h1 (by simp), h2⟩
      | cons d r =>
        dsimp only
        by_cases hdd : d = 0x2E
        · rw [if_pos hdd]
          unfold embeddedIpv4
          refine ⟨fun _ hh => ?_, fun h ec' hh => ?_⟩
          · repeat' split at hh
            all_goals cases hh
          · repeat' split at hh
            all_goals cases hh
            all_goals exact Or.inl rfl
        rw [if_neg hdd]
        by_cases hd3 : d = 0x3A
        · rw [if_pos hd3]
          by_cases hr : r = []
          · rw [if_pos hr]; exact ⟨fun _ hh => (by cases hh), nul _⟩
          rw [if_neg hr]
          obtain ⟨g1, g2⟩ := ih (a.set i (p.foldl (fun n c => n * 16 + digitVal c) 0)) (i + 1) cp r
          refine ⟨fun hl => g1 ?_, g2⟩
          have := congrArg List.length h1
          simp at this hl
          omega
        · rw [if_neg hd3]; exact ⟨fun _ hh => (by cases hh), nul _⟩

theorem parse_not_more (fuel : Nat) (s : List Nat) (ec : Ec) (hf : s.length ≤ fuel) : parseIpv6 fuel s ec ≠ .more := by
  unfold parseIpv6
  split
  · split
    · simp only [List.length_cons] at hf
      exact (loop_kind ec fuel _ _ _ _).1 (by omega)
    · exact fun h => by cases h
  · exact (loop_kind ec fuel _ _ _ _).1 hf

theorem parse_kind (fuel : Nat) (s : List Nat) (ec : Ec) (h : Host) (ec' : Ec) (hr : parseIpv6 fuel s ec = .stop (h, ec')) :
    h = .null ∨ ∃ a, h = .ipv6 a := by
  unfold parseIpv6 at hr
  split at hr
  · split at hr
    · exact (loop_kind ec fuel _ _ _ _).2 h ec' hr
    · cases hr; exact Or.inl rfl
  · exact (loop_kind ec fuel _ _ _ _).2 h ec' hr

theorem opaque_clean (s : List Nat) (hs : ∀ c ∈ s, IsScalar c) (hF : ¬ ∃ c ∈ s, Forbidden c ∧ c ≠ 0x25) :
    ∀ c ∈ (utf8s s).flatMap (unit .c0 false), 0x20 < c ∧ c ≤ 0x7E ∧ (c = 0x25 ∨ ¬ Forbidden c) := by
  intro c hc
  obtain ⟨b, hb, hc⟩ := List.mem_flatMap.mp hc
  have hb256 := utf8s_byte hs b hb
  have hsmall : ∀ c ≤ 0x7E, Forbidden c → c ≤ 0x20 ∨ c ∈ [0x23, 0x25, 0x2F, 0x3A, 0x3F, 0x40, 0x5B, 0x5C, 0x5D] := by decide
  by_cases hr : 0x20 ≤ b ∧ b ≤ 0x7E
  · rw [unit_c0 hr] at hc
    obtain rfl := List.mem_singleton.mp hc
    have hm : c ∈ s := by
      unfold utf8s at hb
      obtain ⟨x, hx, hcx⟩ := List.mem_flatMap.mp hb
      have := hs x hx
      unfold utf8 at hcx
      split at hcx
      · obtain rfl := List.mem_singleton.mp hcx; exact hx
      · exfalso
        repeat' split at hcx
        all_goals
          simp only [List.mem_cons, List.not_mem_nil, or_false] at hcx
          omega
    have h20 : c ≠ 0x20 := by
      rintro rfl
      exact hF ⟨0x20, hm, by decide, by omega⟩
    refine ⟨by omega, hr.2, ?_⟩
    by_cases h25 : c = 0x25
    · exact Or.inl h25
    · exact Or.inr fun hf => hF ⟨c, hm, hf, h25⟩
  · unfold unit at hc
    have hi : InSet .c0 b := by unfold InSet; omega
    rw [if_neg (by simp), if_pos hi] at hc
    simp only [escape, List.map_cons, List.map_nil, List.mem_cons, List.not_mem_nil, or_false] at hc
    have hall : ∀ d < 16, 0x20 < (if d < 10 then 0x30 + d else 0x41 + (d - 10)) ∧ (if d < 10 then 0x30 + d else 0x41 + (d - 10)) ≤ 0x7E ∧
      ¬ Forbidden (if d < 10 then 0x30 + d else 0x41 + (d - 10)) := by decide
    rcases hc with rfl | rfl | rfl
    · exact ⟨by omega, by omega, Or.inl rfl⟩
    · have := hall (b / 16) (by omega); exact ⟨this.1, this.2.1, Or.inr this.2.2⟩
    · have := hall (b % 16) (by omega); exact ⟨this.1, this.2.1, Or.inr this.2.2⟩

end Verif.Proof.HostParse
