import Verif.Proof.UrlApi
import Verif.Props.Legacy
/- The encoding of a URL parser, the port setter, and witnesses. -/
namespace Verif.Proof.UrlPort
open Verif.Model.Infra Verif.Model.Unicode Verif.Model.Coder Verif.Model.Legacy Verif.Model.Percent Verif.Model.Host Verif.Model.Url
open Verif.Spec Verif.Spec.Percent Verif.Spec.Host Verif.Spec.Url
open Verif.Proof.UrlInner Verif.Proof.UrlEnds Verif.Proof.UrlValid Verif.Proof.UrlStep Verif.Proof.UrlApi
open Verif.Props.Percent

/-! ### The encoding -/

/-- What an iteration may do to the encoding. -/
def EOk (s : St) : Step → Prop
  | .cont s' => s'.enc = s.enc ∨ s'.enc = .UTF_8
  | _ => True

theorem hostOf_e {x : Ctx} {s s0 : St} {k : St → Step} (h0 : s.enc = s0.enc) (hk : ∀ t : St, t.enc = s.enc → EOk s0 (k t)) :
    EOk s0 (hostOf x s k) := by
  unfold hostOf
  split
  · trivial
  · trivial
  · dsimp only
    split
    · trivial
    · refine hk _ ?_
      dsimp only
      split <;> rfl

theorem hostname_e (x : Ctx) (s : St) : EOk s (onHostname x s (x.at s.pos)) := by
  unfold onHostname
  generalize hs1 : (if x.override ≠ none ∧ s.url.scheme = lit "file" then { s with pos := s.pos - 1, state := .fileHost } else s) = s1
  have he : s1.enc = s.enc := by subst hs1; split <;> rfl
  dsimp only
  split
  · split
    · trivial
    · refine hostOf_e he fun t ht => ?_
      split
      · trivial
      · exact Or.inl (ht.trans he)
  · split
    · split
      · trivial
      · split
        · trivial
        · refine hostOf_e he fun t ht => ?_
          split
          · trivial
          · exact Or.inl (ht.trans he)
    · refine Or.inl ?_
      dsimp only
      repeat' split
      all_goals exact he

theorem step_enc (x : Ctx) (s : St) : EOk s (step x s) := by
  unfold step
  dsimp only
  split
  · unfold onSchemeStart; repeat' split
    all_goals simp [EOk]
  · unfold onScheme afterScheme; dsimp only; repeat' split
    all_goals simp [EOk]
  · unfold onNoScheme; repeat' split
    all_goals simp [EOk]
  · unfold onSpecialRelativeOrAuthority; repeat' split
    all_goals simp [EOk]
  · unfold onPathOrAuthority; repeat' split
    all_goals simp [EOk]
  · unfold onRelative; dsimp only; repeat' split
    all_goals simp [EOk]
  · unfold onRelativeSlash; repeat' split
    all_goals simp [EOk]
  · unfold onSpecialAuthoritySlashes; repeat' split
    all_goals simp [EOk]
  · unfold onSpecialAuthorityIgnoreSlashes; repeat' split
    all_goals simp [EOk]
  · unfold onAuthority; dsimp only; repeat' split
    all_goals simp [EOk]
  · exact hostname_e x s
  · exact hostname_e x s
  · unfold onPort; dsimp only; repeat' split
    all_goals simp [EOk]
  · unfold onFile; dsimp only; repeat' split
    all_goals simp [EOk]
  · unfold onFileSlash; dsimp only; repeat' split
    all_goals simp [EOk]
  · unfold onFileHost; dsimp only; repeat' split
    all_goals simp [EOk]
  · unfold onPathStart; dsimp only; repeat' split
    all_goals simp [EOk]
  · unfold onPath; dsimp only; repeat' split
    all_goals simp [EOk]
  · unfold onCannotBeABase; dsimp only; repeat' split
    all_goals simp [EOk]
  · unfold onQuery; dsimp only; repeat' split
    all_goals simp [EOk]
  · unfold onFragment; dsimp only; repeat' split
    all_goals simp [EOk]

/-! ### Ports -/

theorem portOf_append (a b : List Nat) : portOf (a ++ b) = b.foldl (fun port cp => (port * 10 + (cp - 0x30)) % 2 ^ 32) (portOf a) := by
  unfold portOf; rw [List.foldl_append]

theorem portOf_numeral {s : List Nat} {v : Nat} (h : Numeral 10 s v) : portOf s = v % 2 ^ 32 ∧ s ≠ [] ∧ ∀ c ∈ s, 0x30 ≤ c ∧ c ≤ 0x39 := by
  have hd : ∀ c v, HexDigit c v → v < 10 → 0x30 ≤ c ∧ c ≤ 0x39 ∧ v = c - 0x30 := by
    intro c v h hv
    rcases h with h | h | h
    · exact h
    · omega
    · omega
  induction h with
  | one h hv =>
    obtain ⟨h1, h2, h3⟩ := hd _ _ h hv
    refine ⟨by simp [portOf, h3], by simp, by simpa using ⟨h1, h2⟩⟩
  | snoc _ h hv ih =>
    obtain ⟨h1, h2, h3⟩ := hd _ _ h hv
    refine ⟨?_, by simp, ?_⟩
    · rw [portOf_append, ih.1]
      simp only [List.foldl_cons, List.foldl_nil, ← h3]
      omega
    · intro c hc
      rcases List.mem_append.mp hc with hc | hc
      · exact ih.2.2 c hc
      · obtain rfl := List.mem_singleton.mp hc; exact ⟨h1, h2⟩

theorem numeral_lt {s : List Nat} {v : Nat} (h : Numeral 10 s v) : v < 10 ^ s.length := by
  induction h with
  | one _ hv => simpa using hv
  | snoc _ _ hv ih => rw [List.length_append, List.length_singleton, Nat.pow_succ]; omega

theorem at_mid (x : Ctx) (a : List Nat) (c : Nat) (r : List Nat) (h : x.input = a ++ c :: r) : x.at a.length = c := by
  unfold Ctx.at
  rw [if_pos (by rw [h]; simp), h]
  simp

theorem port_loop {x : Ctx} (ho : x.override ≠ none) : ∀ (r a : List Nat) (s : St) (m : Nat), x.input = a ++ r →
    (∀ c ∈ r, 0x30 ≤ c ∧ c ≤ 0x39) → s.state = .port → s.buffer = a → s.pos = a.length →
    run x (m + 1 + r.length) s = run x (m + 1) { s with buffer := x.input, pos := x.input.length }
  | [], a, s, m, h, _, _, hb, hp => by
    rw [List.append_nil] at h
    rw [h, ← hp, ← hb]
    rfl
  | c :: r, a, s, m, h, hr, hst, hb, hp => by
    have hc := hr c (by simp)
    have hat : x.at s.pos = c := by rw [hp]; exact at_mid x a c r h
    have hstep : step x s = .cont { s with buffer := a ++ [c] } := by
      unfold step
      rw [hst]
      dsimp only
      rw [hat]
      unfold onPort
      rw [if_pos (by simp [isAsciiDigit]; omega), hb]
      simp [hst]
    rw [show m + 1 + (c :: r).length = (m + 1 + r.length) + 1 by simp; omega, run, hstep]
    dsimp only
    have hlen : x.input.length = a.length + 1 + r.length := by rw [h]; simp; omega
    rw [if_pos (by omega)]
    rw [port_loop ho r (a ++ [c]) { s with buffer := a ++ [c], pos := s.pos + 1 } m (by rw [h]; simp) (fun d hd => hr d (by simp [hd])) hst rfl (by simp [hp])]

/-- The port setter, exactly. -/
theorem setPort_eq (toAscii : List Nat → Ec → List Nat × Ec) (fuel n : Nat) (u : Url) (ds : List Nat) (v : Nat)
    (hu : cannotHaveCredentials u = some false) (hd : Numeral 10 ds v) (hn : ds.length < n) :
    setPort toAscii fuel n u ds = .stop (if ds.length ≤ 5 ∧ v < 65535 then
      { u with port := if (u.scheme, some v) ∈ specials then none else some v } else u) := by
  obtain ⟨hv, hne, hdig⟩ := portOf_numeral hd
  have hlt := numeral_lt hd
  have hcl : cleaned ds = ds := by
    unfold cleaned
    rw [List.filter_eq_self]
    intro c hc
    have := hdig c hc
    simp [isAsciiTabOrNewline]; omega
  unfold setPort
  rw [hu]
  dsimp only
  rw [if_neg hne, into_run]
  obtain ⟨m, rfl⟩ : ∃ m, n = m + 1 + ds.length := ⟨n - 1 - ds.length, by omega⟩
  have hl := port_loop (x := intoCtx toAscii fuel ds .port) (by simp [intoCtx]) ds [] (intoSt ds u .port) m (by simpa [intoCtx] using hcl) hdig rfl rfl rfl
  rw [hl, run]
  have hat : (intoCtx toAscii fuel ds .port).at ((intoCtx toAscii fuel ds .port).input.length) = 0x0A := at_end (Int.le_refl _)
  have hin : (intoCtx toAscii fuel ds .port).input = ds := hcl
  have hstep : step (intoCtx toAscii fuel ds .port) { intoSt ds u .port with buffer := (intoCtx toAscii fuel ds .port).input, pos := ((intoCtx toAscii fuel ds .port).input.length : Int) } =
      onPort (intoCtx toAscii fuel ds .port) { intoSt ds u .port with buffer := (intoCtx toAscii fuel ds .port).input, pos := ((intoCtx toAscii fuel ds .port).input.length : Int) } 0x0A := by
    unfold step
    dsimp only [intoSt]
    rw [hat]
  rw [hstep]
  unfold onPort
  rw [if_neg (by decide), if_pos (Or.inr (by simp [intoCtx]))]
  dsimp only
  rw [hin]
  by_cases hgood : ds.length ≤ 5 ∧ v < 65535
  · have hvv : portOf ds = v := by rw [hv]; omega
    rw [if_neg (by rw [hvv]; rintro ⟨_, h | h⟩ <;> omega), if_pos hne, if_pos (by simp [intoCtx])]
    rw [if_pos hgood]
    dsimp only [after, intoSt]
    rw [hvv]
    have : (some v = defaultPort u.scheme) ↔ (u.scheme, some v) ∈ specials := by
      rw [← default_iff]; exact eq_comm
    by_cases hm : (u.scheme, some v) ∈ specials
    · simp [this, hm]
    · simp [this, hm]
  · rw [if_pos, if_neg hgood]
    · rfl
    · refine ⟨hne, ?_⟩
      by_cases h5 : 5 < ds.length
      · exact Or.inl h5
      · right
        have : (10 : Nat) ^ ds.length ≤ 10 ^ 5 := Nat.pow_le_pow_right (by omega) (by omega)
        rw [hv]
        have : v < 100000 := by omega
        have : 65535 ≤ v := by omega
        omega

/-! ### The encoder that does not end -/

theorem jp_diverges (fuel : Nat) (set : Nat → Bool) : percentEncodeAfterEncoding fuel .ISO_2022_JP [0x1F600] set false = .more := by
  unfold percentEncodeAfterEncoding
  rw [show encoderOf .ISO_2022_JP = some ⟨JpE, .ascii, jpE⟩ from rfl]
  dsimp only
  cases fuel with
  | zero => rfl
  | succ n =>
    rw [encodeLoop]
    unfold encodeOrFail
    rw [Verif.Props.Legacy.C39_diverges 0x1F600 (by decide) (by decide +kernel) [] .fatal]

end Verif.Proof.UrlPort
