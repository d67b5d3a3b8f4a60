import Verif.Proof.Utf8Coder
/- The UTF-8 reports are unique; the encoder; the hooks. -/
namespace Verif.Proof.Utf8Report
open Verif.Model.Coder Verif.Spec Verif.Proof.CoderRun Verif.Proof.Utf8Forms Verif.Proof.Utf8Coder

theorem utf8_ne_nil (c : Nat) : utf8 c ≠ [] := by
  unfold utf8; split
  · simp
  · split
    · simp
    · split <;> simp

theorem maximal_unique {p q b : List Nat} (hp : MaximalSubpart p b) (hq : MaximalSubpart q b) : p = q := by
  obtain ⟨p1, p2, _, p4, p5⟩ := hp
  obtain ⟨q1, q2, _, q4, q5⟩ := hq
  have pl : 0 < p.length := List.length_pos_iff.mpr p2
  have ql : 0 < q.length := List.length_pos_iff.mpr q2
  have h : ¬ p.length < q.length := fun h => p5 q q1 h (q4.resolve_left (by omega))
  have h' : ¬ q.length < p.length := fun h => q5 p p1 h (p4.resolve_left (by omega))
  have := List.prefix_of_prefix_length_le p1 q1 (by omega)
  exact this.eq_of_length (by omega)

theorem decodes_unique {b : List Nat} {o o' : List (Option Nat)} (h : Utf8Decodes b o) (h' : Utf8Decodes b o') :
    o = o' := by
  induction h generalizing o' with
  | nil =>
    generalize e : ([] : List Nat) = x at h'
    cases h' with
    | nil => rfl
    | good _ _ => exact absurd (List.append_eq_nil_iff.1 e.symm).1 (utf8_ne_nil _)
    | bad hm _ => exact absurd (List.append_eq_nil_iff.1 e.symm).1 hm.2.1
  | @good c b o hc hd ih =>
    generalize e : utf8 c ++ b = x at h'
    cases h' with
    | nil => exact absurd (List.append_eq_nil_iff.1 e).1 (utf8_ne_nil _)
    | @good d b' o'' hdd h2 =>
      have e1 := full_prefix_unique (full_utf8 hc) (full_utf8 hdd) ⟨b, e⟩ ⟨b', rfl⟩
      obtain rfl := utf8_inj e1
      rw [List.append_cancel_left_eq] at e
      subst e
      rw [ih h2]
    | bad hm _ => exact absurd ⟨c, hc, ⟨b, e⟩⟩ hm.2.2.1
  | @bad p b o hm hd ih =>
    generalize e : p ++ b = x at h' hm
    cases h' with
    | nil => exact absurd (List.append_eq_nil_iff.1 e).1 hm.2.1
    | @good d b' o'' hdd h2 => exact absurd ⟨d, hdd, ⟨b', rfl⟩⟩ hm.2.2.1
    | @bad p' b' o'' hm' h2 =>
      obtain rfl := maximal_unique hm hm'
      rw [List.append_cancel_left_eq] at e
      subst e
      rw [ih h2]

theorem decodes_utf8s {s : List Nat} (h : ∀ c ∈ s, IsScalar c) : Utf8Decodes (utf8s s) (s.map some) := by
  induction s with
  | nil => exact .nil
  | cons c s ih =>
    have : utf8s (c :: s) = utf8 c ++ utf8s s := by simp [utf8s]
    rw [this]
    exact .good (h c (by simp)) (ih fun x hx => h x (by simp [hx]))

theorem decodes_scalars {b : List Nat} {o : List (Option Nat)} (h : Utf8Decodes b o) : ∀ c, some c ∈ o → IsScalar c := by
  induction h with
  | nil => simp
  | @good c b o hc _ ih =>
    intro d hd
    rcases List.mem_cons.1 hd with e | e
    · cases e; exact hc
    · exact ih d e
  | bad _ _ ih =>
    intro d hd
    rcases List.mem_cons.1 hd with e | e
    · cases e
    · exact ih d e

theorem decodes_no_error {b : List Nat} {o : List (Option Nat)} (h : Utf8Decodes b o) (hn : none ∉ o) :
    ∃ s, (∀ c ∈ s, IsScalar c) ∧ b = utf8s s ∧ o = s.map some := by
  induction h with
  | nil => exact ⟨[], by simp, rfl, rfl⟩
  | @good c b o hc _ ih =>
    obtain ⟨s, h1, h2, h3⟩ := ih (fun h => hn (List.mem_cons_of_mem _ h))
    refine ⟨c :: s, ?_, ?_, ?_⟩
    · intro x hx
      rcases List.mem_cons.1 hx with e | e
      · exact e ▸ hc
      · exact h1 x e
    · rw [h2]; simp [utf8s]
    · rw [h3]; rfl
  | bad _ _ _ => simp at hn

theorem utf8s_byte {s : List Nat} (h : ∀ c ∈ s, IsScalar c) : ∀ x ∈ utf8s s, x < 256 := by
  intro x hx
  simp only [utf8s, List.mem_flatMap] at hx
  obtain ⟨c, hc, hx⟩ := hx
  have := h c hc
  unfold IsScalar at this
  by_cases h1 : c < 0x80
  · rw [utf8_1 h1] at hx; simp at hx; omega
  · by_cases h2 : c < 0x800
    · rw [utf8_2 (by omega) h2] at hx; simp at hx; omega
    · by_cases h3 : c < 0x10000
      · rw [utf8_3 (by omega) h3] at hx; simp at hx; omega
      · rw [utf8_4 (by omega)] at hx; simp at hx; omega

theorem points_some (s : List Nat) : points (s.map some) = s := by simp [points]

theorem or80 (x : Nat) : (0x80 ||| (x &&& 0x3F)) % 256 = 0x80 + x % 64 := by
  rw [and_low 6 x 0x3F rfl]
  have h : x % 2 ^ 6 < 2 ^ 7 := by omega
  have e := Nat.shiftLeft_add_eq_or_of_lt (i := 7) h 1
  rw [show (1 <<< 7 : Nat) = 0x80 from rfl] at e
  rw [← e]; omega

theorem shr (x k : Nat) : x >>> (6 * k) = x / 64 ^ k := by
  rw [Nat.shiftRight_eq_div_pow, Nat.pow_mul]

/-- The encoder writes the encoding form, also of surrogates. -/
theorem run_encode {c : Nat} (h : c ≤ 0x10FFFF) : utf8E () (.val c) = some (.bytes (utf8 c), (), []) := by
  unfold utf8E
  dsimp only
  by_cases h1 : c < 0x80
  · rw [if_pos (by omega), utf8_1 h1, Nat.mod_eq_of_lt (by omega)]
  · rw [if_neg (by omega)]
    by_cases h2 : c < 0x800
    · rw [if_pos (by omega), utf8_2 (by omega) h2]
      have : utf8Array 1 c = [0xC0 + c / 64, 0x80 + c % 64] := by
        simp only [utf8Array, utf8Tail, or80, shr]
        exact list2 (by simp; omega) (by simp)
      rw [this]
    · rw [if_neg (by omega)]
      by_cases h3 : c < 0x10000
      · rw [if_pos (by omega), utf8_3 (by omega) h3]
        have : utf8Array 2 c = [0xE0 + c / 4096, 0x80 + c / 64 % 64, 0x80 + c % 64] := by
          simp only [utf8Array, utf8Tail, or80, shr]
          exact list3 (by simp; omega) (by simp) (by simp)
        rw [this]
      · rw [if_neg (by omega), if_pos (by omega), utf8_4 (by omega)]
        have : utf8Array 3 c = [0xF0 + c / 262144, 0x80 + c / 4096 % 64, 0x80 + c / 64 % 64, 0x80 + c % 64] := by
          simp only [utf8Array, utf8Tail, or80, shr]
          exact list4 (by simp; omega) (by simp) (by simp) (by simp)
        rw [this]

theorem encode_whole (s : List Nat) (h : ∀ c ∈ s, c ≤ 0x10FFFF) :
    ∃ rs, Whole utf8E () (qq s) rs () (qq []) ∧ rs = s.map (fun c => .bytes (utf8 c)) := by
  induction s with
  | nil => exact ⟨[], ⟨(), qq [], .eoq, qq [], [], .nil _ _, read_nil, rfl, rfl⟩, rfl⟩
  | cons c s ih =>
    obtain ⟨rs, ⟨a1, a2, a3, a4, a5, a6, a7, a8, a9⟩, rfl⟩ := ih fun x hx => h x (by simp [hx])
    exact ⟨_, ⟨a1, a2, a3, a4, a5, .step (read_cons c s) (run_encode (h c (by simp))) (by simp) a6, a7, a8, a9⟩, rfl⟩

theorem utf8Encode_eq (s : List Nat) (h : ∀ c ∈ s, c ≤ 0x10FFFF) (fuel : Nat) (hf : s.length < fuel) :
    utf8Encode fuel (toQueue s) [] = .stop (.finished, [.eoq], outAt (utf8s s) true) := by
  obtain ⟨rs, hw, rfl⟩ := encode_whole s h
  have := processQueue_whole (dec := false) (mode := .html) hw (Or.inl (by decide)) fuel (by simpa using hf) [] false
  unfold utf8Encode
  rw [toQueue_eq]
  change processQueue false utf8E Mode.html fuel () (qq s) [] = _ at this
  rw [show (s.map Item.val ++ [Item.eoq]) = qq s from rfl, this]
  have e : outs false Mode.html (s.map fun c => Res.bytes (utf8 c)) = utf8s s := by
    simp only [outs, List.flatMap_map, utf8s]; rfl
  rw [e]; rfl

/-- Running the decoder over a byte string. -/
theorem decode_spec (b : List Nat) (hb : ∀ x ∈ b, x < 256) :
    ∃ rs s', Utf8Decodes b (report rs) ∧ Whole utf8D Utf8D.init (qq b) rs s' (qq []) ∧ rs.length ≤ 2 * b.length := by
  obtain ⟨rs, s', h1, h2, h3⟩ := decode_whole b.length b (Nat.le_refl _) hb Utf8D.init rfl (fun _ => rfl)
  exact ⟨rs, s', h2, h1, h3⟩

theorem withoutBom_eq (b : List Nat) (hb : ∀ x ∈ b, x < 256) {o : List (Option Nat)} (ho : Utf8Decodes b o)
    (fuel : Nat) (hf : 2 * b.length < fuel) :
    utf8DecodeWithoutBom fuel (toQueue b) [] = .stop (.finished, [.eoq], outAt (points o) true) := by
  obtain ⟨rs, s', h1, h2, h3⟩ := decode_spec b hb
  obtain rfl := decodes_unique ho h1
  have := processQueue_whole (dec := false) (mode := .replacement) h2 (Or.inl (by decide)) fuel (by omega) [] false
  unfold utf8DecodeWithoutBom
  rw [toQueue_eq, show (b.map Item.val ++ [Item.eoq]) = qq b from rfl]
  change processQueue false utf8D Mode.replacement fuel _ (qq b) [] = _ at this
  rw [this, outs_replacement_false]; rfl

theorem orFail_ok (b : List Nat) (hb : ∀ x ∈ b, x < 256) {o : List (Option Nat)} (ho : Utf8Decodes b o)
    (hn : none ∉ o) (fuel : Nat) (hf : 2 * b.length < fuel) :
    utf8DecodeOrFail fuel (toQueue b) [] = .stop (.finished, [.eoq], outAt (points o) true) := by
  obtain ⟨rs, s', h1, h2, h3⟩ := decode_spec b hb
  obtain rfl := decodes_unique ho h1
  have hne : ∀ r ∈ rs, ∀ cp, r ≠ .error cp := fun r hr cp e => hn ((error_iff_report rs).1 ⟨r, hr, cp, e⟩)
  have := processQueue_whole (dec := false) (mode := .fatal) h2 (Or.inr hne) fuel (by omega) [] false
  unfold utf8DecodeOrFail
  rw [toQueue_eq, show (b.map Item.val ++ [Item.eoq]) = qq b from rfl]
  change processQueue false utf8D Mode.fatal fuel _ (qq b) [] = _ at this
  rw [this, outs_fatal]; rfl

theorem report_split {rs a b : List Res} {cp : Nat} (e : rs = a ++ .error cp :: b)
    (ha : ∀ r ∈ a, ∀ cp, r ≠ .error cp) : ∃ s t, report rs = s.map some ++ none :: t ∧ points (report a) = s := by
  refine ⟨points (report a), report b, ?_, rfl⟩
  have h : none ∉ report a := fun h => by
    obtain ⟨r, hr, c, hc⟩ := (error_iff_report a).2 h
    exact ha r hr c hc
  have h2 : ∀ o : List (Option Nat), none ∉ o → (points o).map some = o := by
    intro o ho
    induction o with
    | nil => rfl
    | cons x o ih =>
      cases x with
      | none => simp at ho
      | some v =>
        have := ih (fun h => ho (by simp [h]))
        simp only [points, List.filterMap_cons] at this ⊢
        simpa using this
  rw [e, report_append, report_cons, h2 _ h]; rfl

theorem orFail_error (b : List Nat) (hb : ∀ x ∈ b, x < 256) {o : List (Option Nat)} (ho : Utf8Decodes b o)
    (hn : none ∈ o) (fuel : Nat) (hf : 2 * b.length < fuel) :
    ∃ cp q s t, utf8DecodeOrFail fuel (toQueue b) [] = .stop (.error cp, q, outAt s false) ∧
      o = s.map some ++ none :: t := by
  obtain ⟨rs, s', h1, h2, h3⟩ := decode_spec b hb
  obtain rfl := decodes_unique ho h1
  obtain ⟨st1, q1, item, q', pre, h2, _⟩ := h2
  obtain ⟨cp, st', q', o', e, a, b', e1, e2, e3⟩ := processQueue_trace_fatal (dec := false) h2
    ((error_iff_report rs).2 hn) fuel (by omega) [] false
  obtain ⟨s, t, e4, e5⟩ := report_split e1 e2
  refine ⟨cp, q', s, t, ?_, e4⟩
  unfold utf8DecodeOrFail
  rw [toQueue_eq, show (b.map Item.val ++ [Item.eoq]) = qq b from rfl]
  change processQueue false utf8D Mode.fatal fuel _ (qq b) [] = _ at e
  rw [e, e3, outs_fatal, e5]; rfl

theorem peekLoop_qq (b : List Nat) : peekLoop (qq b) = b := by
  induction b with
  | nil => rfl
  | cons x b ih => rw [show qq (x :: b) = .val x :: qq b from rfl, peekLoop, ih]

/-- `utf8_decode` drops one leading byte order mark and decodes the rest. -/
theorem utf8Decode_eq (fuel : Nat) (b : List Nat) :
    utf8Decode fuel (toQueue b) [] =
      utf8DecodeWithoutBom fuel (toQueue (if utf8 0xFEFF <+: b then b.drop 3 else b)) [] := by
  unfold utf8Decode
  rw [toQueue_eq, show (b.map Item.val ++ [Item.eoq]) = qq b from rfl]
  have hp : peek 3 (qq b) = some b := by
    unfold peek
    rw [if_neg, peekLoop_qq]
    rintro ⟨_, h⟩; exact h (by simp [qq])
  rw [hp]
  dsimp only
  have hu : utf8 0xFEFF = [0xEF, 0xBB, 0xBF] := by decide
  rw [hu, toQueue_eq]
  by_cases h : [0xEF, 0xBB, 0xBF] <+: b
  · obtain ⟨t, rfl⟩ := h
    rw [if_pos (by simp), if_pos ⟨t, rfl⟩]
    have : (readN 3 (qq ([0xEF, 0xBB, 0xBF] ++ t))).2 = qq t := by
      unfold readN
      rw [if_neg (by simp [qq])]
      rfl
    rw [this]; rfl
  · rw [if_neg h, if_neg]
    · rfl
    · rintro ⟨h1, h2, h3, h4⟩
      apply h
      match b, h2, h3, h4 with
      | [_, _, _], h2, h3, h4 => simp at h2 h3 h4; subst h2 h3 h4; simp
      | _ :: _ :: _ :: _ :: _, h2, h3, h4 => simp at h2 h3 h4; subst h2 h3 h4; simp

end Verif.Proof.Utf8Report
