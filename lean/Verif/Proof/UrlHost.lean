import Verif.Proof.UrlPort
/- The text that the URL parser takes for a host. -/
namespace Verif.Proof.UrlHost
open Verif.Model.Infra Verif.Model.Unicode Verif.Model.Coder Verif.Model.Legacy Verif.Model.Percent Verif.Model.Host Verif.Model.Url
open Verif.Spec Verif.Spec.Percent Verif.Spec.Host Verif.Spec.Url
open Verif.Proof.UrlInner Verif.Proof.UrlEnds Verif.Proof.UrlValid Verif.Proof.UrlStep Verif.Proof.UrlApi Verif.Proof.UrlPort
open Verif.Props.Percent

/-- What was read of the input. -/
def past (x : Ctx) (s : St) : List Nat := x.input.take s.pos.toNat

/-- The buffer is what was read last; the host setter of a `file` URL reads the first code point twice. -/
def Slice (x : Ctx) (s : St) : Prop :=
  (s.state = .host ∨ s.state = .hostname → s.buffer <:+ past x s) ∧
  (s.state = .fileHost → s.buffer <:+ past x s ∨ (x.override ≠ none ∧ ∃ c t, s.buffer = c :: t ∧ t <:+ past x s))

/-- What an iteration does to it. -/
def SOk (x : Ctx) : Step → Prop
  | .cont s' => Slice x { s' with pos := s'.pos + 1 }
  | _ => True

theorem suffix_next {x : Ctx} {s : St} {b : List Nat} (lo : 0 ≤ s.pos) (h : b <:+ past x s) (hc : x.at s.pos ≠ 0x0A) :
    b ++ [x.at s.pos] <:+ x.input.take (s.pos + 1).toNat := by
  obtain ⟨t, ht⟩ := h
  have e : (s.pos + 1).toNat = s.pos.toNat + 1 := by omega
  have hlt : s.pos.toNat < x.input.length := by
    by_contra hh
    apply hc
    unfold Ctx.at
    rw [if_neg (by omega)]
  have hat : x.at s.pos = x.input[s.pos.toNat] := by
    unfold Ctx.at
    rw [if_pos ⟨lo, by omega⟩]
    simp [List.getD, hlt]
  refine ⟨t, ?_⟩
  rw [e, List.take_succ_eq_append_getElem hlt, ← hat, ← List.append_assoc, ht]
  rfl

variable {x : Ctx} {s : St}

theorem hostOf_s {s1 : St} {k : St → Step} (hk : ∀ t : St, SOk x (k t)) : SOk x (hostOf x s1 k) := by
  unfold hostOf
  split
  · trivial
  · trivial
  · dsimp only
    split
    · trivial
    · exact hk _

theorem hostname_s (hs : TInv x s) (hst : s.state = .host ∨ s.state = .hostname) (hb : Slice x s) :
    SOk x (onHostname x s (x.at s.pos)) := by
  have lo := hs.lo
  have h1 := hb.1 hst
  have sh : (x.override ≠ none ∧ s.url.scheme = lit "file" → s.buffer = []) := by
    have := hs.shape
    rcases hst with h | h <;> rw [Shape, h] at this <;> exact this.2
  unfold onHostname
  by_cases ho : x.override ≠ none ∧ s.url.scheme = lit "file"
  · rw [if_pos ho]
    dsimp only
    have hbb := sh ho
    split
    · trivial
    · split
      · split
        · trivial
        · split
          · trivial
          · refine hostOf_s fun t => ?_
            split
            · trivial
            · simp [SOk, Slice]
      · have key : ∀ b, SOk x (.cont { s with pos := s.pos - 1, state := .fileHost, insideBrackets := b, buffer := s.buffer ++ [x.at s.pos] }) := by
          intro b
          refine ⟨by simp, fun _ => Or.inr ⟨ho.1, x.at s.pos, [], by simp [hbb], List.nil_suffix⟩⟩
        split
        · split
          · first | exact key false | exact key true | exact key s.insideBrackets
          · first | exact key false | exact key true | exact key s.insideBrackets
        · split
          · first | exact key false | exact key true | exact key s.insideBrackets
          · first | exact key false | exact key true | exact key s.insideBrackets
  · rw [if_neg ho]
    dsimp only
    split
    · split
      · trivial
      · refine hostOf_s fun t => ?_
        split
        · trivial
        · simp [SOk, Slice]
    · split
      · split
        · trivial
        · split
          · trivial
          · refine hostOf_s fun t => ?_
            split
            · trivial
            · simp [SOk, Slice]
      · rename_i he
        have hc : x.at s.pos ≠ 0x0A := by
          intro h
          rw [h] at he
          simp [endsAuthority] at he
        have key : ∀ b, SOk x (.cont { s with insideBrackets := b, buffer := s.buffer ++ [x.at s.pos] }) := by
          intro b
          refine ⟨fun _ => suffix_next lo h1 hc, fun h => ?_⟩
          dsimp only at h
          rcases hst with h' | h' <;> rw [h] at h' <;> cases h'
        split
        · split
          · first | exact key false | exact key true | exact key s.insideBrackets
          · first | exact key false | exact key true | exact key s.insideBrackets
        · split
          · first | exact key false | exact key true | exact key s.insideBrackets
          · first | exact key false | exact key true | exact key s.insideBrackets

theorem fileHost_s (hs : TInv x s) (hst : s.state = .fileHost) (hb : Slice x s) : SOk x (onFileHost x s (x.at s.pos)) := by
  have lo := hs.lo
  unfold onFileHost
  split
  · dsimp only
    repeat' split
    all_goals simp [SOk, Slice]
  · rename_i hc
    have hc : x.at s.pos ≠ 0x0A := fun h => hc (Or.inl h)
    refine ⟨fun h => ?_, fun _ => ?_⟩
    · dsimp only at h
      rw [hst] at h
      rcases h with h | h <;> cases h
    · rcases hb.2 hst with h | ⟨h0, c, t, h1, h2⟩
      · exact Or.inl (suffix_next lo h hc)
      · exact Or.inr ⟨h0, c, t ++ [x.at s.pos], by simp [h1], suffix_next lo h2 hc⟩

@[simp] theorem badIf_state (b : Bool) : (s.badIf b).state = s.state := by unfold St.badIf; split <;> rfl

theorem step_slice (hs : TInv x s) (hb : Slice x s) : SOk x (step x s) := by
  unfold step
  dsimp only
  split <;> rename_i hst
  · unfold onSchemeStart; repeat' split
    all_goals simp [SOk, Slice, hst]
  · unfold onScheme afterScheme; dsimp only; repeat' split
    all_goals simp [SOk, Slice, hst]
  · unfold onNoScheme; repeat' split
    all_goals simp [SOk, Slice, hst]
  · unfold onSpecialRelativeOrAuthority; repeat' split
    all_goals simp [SOk, Slice, hst]
  · unfold onPathOrAuthority; repeat' split
    all_goals simp [SOk, Slice, hst]
  · unfold onRelative; dsimp only; repeat' split
    all_goals simp [SOk, Slice, hst]
  · unfold onRelativeSlash; repeat' split
    all_goals simp [SOk, Slice, hst]
  · unfold onSpecialAuthoritySlashes; repeat' split
    all_goals simp [SOk, Slice, hst]
  · unfold onSpecialAuthorityIgnoreSlashes; repeat' split
    all_goals simp [SOk, Slice, hst]
  · unfold onAuthority; dsimp only; repeat' split
    all_goals simp [SOk, Slice, hst]
  · exact hostname_s hs (Or.inl hst) hb
  · exact hostname_s hs (Or.inr hst) hb
  · unfold onPort; dsimp only; repeat' split
    all_goals simp [SOk, Slice, hst]
  · unfold onFile; dsimp only; repeat' split
    all_goals simp [SOk, Slice, hst]
  · have sh := hs.shape
    rw [Shape, hst] at sh
    unfold onFileSlash; dsimp only; repeat' split
    all_goals simp [SOk, Slice, hst, sh]
  · exact fileHost_s hs hst hb
  · unfold onPathStart; dsimp only; repeat' split
    all_goals simp [SOk, Slice, hst]
  · unfold onPath; dsimp only; repeat' split
    all_goals simp [SOk, Slice, hst]
  · unfold onCannotBeABase; dsimp only; repeat' split
    all_goals simp [SOk, Slice, hst]
  · unfold onQuery; dsimp only; repeat' split
    all_goals simp [SOk, Slice, hst]
  · unfold onFragment; dsimp only; repeat' split
    all_goals simp [SOk, Slice, hst]

/-- Where undefined behaviour comes from. -/
theorem run_cause {x : Ctx} (hx : CInv x) : ∀ (n : Nat) (s : St), TInv x s → Slice x s → run x n s = .ub →
    ∃ s', Cause x s' ∧ Slice x s' ∧ (s'.enc = s.enc ∨ s'.enc = .UTF_8)
  | 0, s, hs, hb, h => by cases h
  | n + 1, s, hs, hb, h => by
    have h1 := step_ok hx hs
    have h2 := step_enc x s
    have h2' := step_slice hs hb
    rw [run] at h
    cases hst : step x s with
    | failure s' => rw [hst] at h; cases h
    | ret s' => rw [hst] at h; cases h
    | more => rw [hst] at h; cases h
    | ub => rw [hst] at h1; exact ⟨s, h1, hb, Or.inl rfl⟩
    | cont s' =>
      rw [hst] at h1 h2 h2' h
      dsimp only at h
      by_cases hp : s'.pos < x.input.length
      · rw [if_pos hp] at h
        obtain ⟨t, h3, h3', h4⟩ := run_cause hx n _ (h1.2 hp).1 h2' h
        refine ⟨t, h3, h3', ?_⟩
        rcases h4 with h4 | h4
        · rw [h4]; exact h2
        · exact Or.inr h4
      · rw [if_neg hp] at h; cases h

/-! ### Setters -/

/-- The states that the setters other than those of the host come to. -/
def Far (s : St) : Prop :=
  s.state ∈ [State.schemeStart, .scheme, .port, .pathStart, .path, .cannotBeABaseUrlPath, .query, .fragment]

/-- The states that the setters of the host come to. -/
def Near (scheme : List Nat) (s : St) : Prop :=
  (s.state = .host ∨ s.state = .hostname ∨ (s.state = .fileHost ∧ scheme = codes "file")) ∧ s.url.scheme = scheme

/-- A property of the next state. -/
def Next (P : St → Prop) : Step → Prop
  | .cont s' => P s'
  | _ => True

theorem far_step (ho : x.override ≠ none) (h : Far s) : Next Far (step x s) := by
  have h' : s.state ∈ [State.schemeStart, .scheme, .port, .pathStart, .path, .cannotBeABaseUrlPath, .query, .fragment] := h
  simp only [List.mem_cons, List.not_mem_nil, or_false] at h'
  unfold step
  dsimp only
  split <;> rename_i hst
  case h_1 =>
    unfold onSchemeStart; repeat' split
    all_goals first | contradiction | simp_all [Next, Far]
  case h_2 =>
    unfold onScheme; dsimp only; rw [if_pos ho, if_neg ho]; repeat' split
    all_goals first | contradiction | simp_all [Next, Far]
  case h_13 =>
    unfold onPort; dsimp only; repeat' split
    all_goals first | contradiction | simp_all [Next, Far]
  case h_17 =>
    unfold onPathStart; dsimp only; repeat' split
    all_goals first | contradiction | simp_all [Next, Far]
  case h_18 =>
    unfold onPath; dsimp only; repeat' split
    all_goals first | trivial | simp [Next, Far, hst]
  case h_19 =>
    unfold onCannotBeABase; dsimp only; repeat' split
    all_goals first | trivial | simp [Next, Far, hst]
  case h_20 =>
    unfold onQuery; dsimp only; repeat' split
    all_goals first | trivial | simp [Next, Far, hst]
  case h_21 =>
    unfold onFragment; dsimp only; repeat' split
    all_goals first | trivial | simp [Next, Far, hst]
  all_goals (exfalso; rw [hst] at h'; simp at h')

@[simp] theorem badIf_url (b : Bool) : (s.badIf b).url = s.url := by unfold St.badIf; split <;> rfl

theorem near_hostOf {P : St → Prop} {s1 : St} {k : St → Step} (hk : ∀ t : St, Next P (k t)) : Next P (hostOf x s1 k) := by
  unfold hostOf
  split
  · trivial
  · trivial
  · dsimp only
    split
    · trivial
    · exact hk _

theorem near_hostname {sch : List Nat} (ho : x.override ≠ none) (hst : s.state = .host ∨ s.state = .hostname)
    (h : s.url.scheme = sch) : Next (fun t => Near sch t ∨ Far t) (onHostname x s (x.at s.pos)) := by
  unfold onHostname
  generalize hs1 : (if x.override ≠ none ∧ s.url.scheme = lit "file" then { s with pos := s.pos - 1, state := .fileHost } else s) = s1
  have h1 : Near sch s1 := by
    subst hs1
    split
    · rename_i hh
      exact ⟨Or.inr (Or.inr ⟨rfl, h ▸ hh.2⟩), h⟩
    · exact ⟨hst.elim Or.inl fun h => Or.inr (Or.inl h), h⟩
  dsimp only
  split
  · split
    · trivial
    · refine near_hostOf fun t => ?_
      split
      · trivial
      · exact Or.inr (by simp [Far])
  · split
    · split
      · trivial
      · split
        · trivial
        · refine near_hostOf fun t => ?_
          trivial
    · refine Or.inl ?_
      repeat' split
      all_goals exact h1

theorem near_step {sch : List Nat} (ho : x.override ≠ none) (h : Near sch s) : Next (fun t => Near sch t ∨ Far t) (step x s) := by
  unfold step
  dsimp only
  rcases h with ⟨h | h | ⟨h, hfile⟩, hsc⟩ <;> rw [h] <;> dsimp only
  · exact near_hostname ho (Or.inl h) hsc
  · exact near_hostname ho (Or.inr h) hsc
  · unfold onFileHost
    dsimp only
    repeat' split
    all_goals first | trivial | contradiction | exact Or.inl ⟨Or.inr (Or.inr ⟨h, hfile⟩), hsc⟩ | simp_all [Next]

theorem slice_infix {b : List Nat} (h : b <:+ past x s) : b <:+: x.input := by
  obtain ⟨t, ht⟩ := h
  have := List.take_append_drop s.pos.toNat x.input
  exact ⟨t, x.input.drop s.pos.toNat, by rw [ht]; exact this⟩

/-- A host that cannot be compared. -/
def Incomparable (h : Host) : Prop := ∀ d, h ≠ .domain d ∧ h ≠ .opaque d

theorem hostEq_none {h : Host} {t : List Nat} (hh : hostEq h t = none) : Incomparable h := by
  intro d
  constructor <;> (rintro rfl; simp [hostEq] at hh)

/-- Text that makes the host parser, or what follows it, undefined. -/
def BadHost (toAscii : List Nat → Ec → List Nat × Ec) (fuel : Nat) (special : Bool) (b : List Nat) : Prop :=
  (special = true → b ≠ []) ∧ (parseHost toAscii fuel b (!special) none = .ub ∨
    ∃ h e, parseHost toAscii fuel b (!special) none = .stop (h, e) ∧ h ≠ .null ∧ Incomparable h)

theorem cause_far (hc : Cause x s) (he : s.enc = .UTF_8) (hf : Far s) : False := by
  have hf : s.state ∈ [State.schemeStart, .scheme, .port, .pathStart, .path, .cannotBeABaseUrlPath, .query, .fragment] := hf
  rcases hc with ⟨h, _⟩ | ⟨_, _, h, _⟩ | ⟨_, e, _, h1, h2, _⟩
  · rcases h with h | h | h <;> rw [h] at hf <;> simp at hf
  · rw [h] at hf; simp at hf
  · exact h2 (h1 ▸ he)

theorem parse_ub (toAscii : List Nat → Ec → List Nat × Ec) (fuel n : Nat) (input : List Nat) (base : Option Url)
    (hs : ∀ c ∈ input, IsScalar c) (hf : 9 * input.length + 20 ≤ fuel) (h : parse toAscii fuel n input base .UTF_8 = .ub) :
    ∃ b sp, b <:+: cleaned (trimmed input) ∧ BadHost toAscii fuel sp b := by
  rw [parse_run] at h
  obtain ⟨s', hc, hsl, he⟩ := run_cause (parse_cinv toAscii fuel input hs hf base) n _
    (parse_tinv toAscii fuel input base .UTF_8 (by decide)) (by simp [Slice, parseSt]) h
  have he : s'.enc = .UTF_8 := by rcases he with he | he <;> exact he
  rcases hc with ⟨h1, h2, h3⟩ | ⟨k, e, h1, h2, h3, h4⟩ | ⟨_, e, _, h1, h2, _⟩
  · refine ⟨s'.buffer, isSpecial s'.url, ?_, h2, Or.inl h3⟩
    rcases h1 with h1 | h1 | h1
    · exact slice_infix (hsl.1 (Or.inl h1))
    · exact slice_infix (hsl.1 (Or.inr h1))
    · rcases hsl.2 h1 with h5 | ⟨h5, _⟩
      · exact slice_infix h5
      · exact absurd rfl h5
  · refine ⟨s'.buffer, isSpecial s'.url, ?_, ?_, Or.inr ⟨k, e, h2, h3, hostEq_none h4⟩⟩
    · rcases hsl.2 h1 with h5 | ⟨h5, _⟩
      · exact slice_infix h5
      · exact absurd rfl h5
    · intro h5 h6
      rw [h6, h5] at h2
      simp [parseHost] at h2
  · exact absurd (h1 ▸ he) h2

/-- Undefined behaviour of a run in which the states keep a property. -/
theorem run_keep {x : Ctx} (hx : CInv x) {P : St → Prop} (hp : ∀ s m, P s → P { s with pos := m })
    (hP : ∀ s, P s → Next P (step x s)) : ∀ (n : Nat) (s : St), TInv x s → Slice x s → P s → s.enc = .UTF_8 → run x n s = .ub →
    ∃ s', Cause x s' ∧ Slice x s' ∧ s'.enc = .UTF_8 ∧ P s'
  | 0, s, hs, hb, hq, he, h => by cases h
  | n + 1, s, hs, hb, hq, he, h => by
    have h1 := step_ok hx hs
    have h2 := step_enc x s
    have h2' := step_slice hs hb
    have h3 := hP s hq
    rw [run] at h
    cases hst : step x s with
    | failure s' => rw [hst] at h; cases h
    | ret s' => rw [hst] at h; cases h
    | more => rw [hst] at h; cases h
    | ub => rw [hst] at h1; exact ⟨s, h1, hb, he, hq⟩
    | cont s' =>
      rw [hst] at h1 h2 h2' h3 h
      dsimp only at h
      by_cases hl : s'.pos < x.input.length
      · rw [if_pos hl] at h
        refine run_keep hx hp hP n _ (h1.2 hl).1 h2' (hp _ _ h3) ?_ h
        rcases h2 with h4 | h4
        · exact h4.trans he
        · exact h4
      · rw [if_neg hl] at h; cases h

theorem into_ub (toAscii : List Nat → Ec → List Nat × Ec) (fuel n : Nat) (input : List Nat) (url : Url) (state : State)
    (hs : ∀ c ∈ input, IsScalar c) (hf : 9 * input.length + 20 ≤ fuel)
    (hsh : Shape (intoCtx toAscii fuel input state) (intoSt input url state)) (h : parseInto toAscii fuel n input url state = .ub) :
    ((state = .host ∨ state = .hostname) → ∃ b c t, (b = t ∨ b = c :: t ∧ url.scheme = codes "file") ∧ t <:+: cleaned input ∧
      BadHost toAscii fuel (isSpecialScheme url.scheme) b) ∧
    ¬ Far (intoSt input url state) := by
  rw [into_run] at h
  have ho : (intoCtx toAscii fuel input state).override ≠ none := by simp [intoCtx]
  have hsl : Slice (intoCtx toAscii fuel input state) (intoSt input url state) := by
    refine ⟨fun _ => by simp [intoSt], fun _ => Or.inl (by simp [intoSt])⟩
  have hx := into_cinv toAscii fuel input hs hf state
  have ht := into_tinv toAscii fuel input url state hsh
  constructor
  · intro hst
    obtain ⟨s', h1, h2, h3, h4⟩ := run_keep hx (P := fun t => Near url.scheme t ∨ Far t) (fun _ _ h => h)
      (fun s h => h.elim (near_step ho) fun h => by
        have := far_step ho h
        cases hr : step (intoCtx toAscii fuel input state) s with
        | cont s' => rw [hr] at this; exact Or.inr this
        | _ => trivial)
      n _ ht hsl (Or.inl ⟨hst.elim Or.inl fun h => Or.inr (Or.inl h), rfl⟩) rfl h
    rcases h4 with h4 | h4
    · obtain ⟨h4, h5⟩ := h4
      have hsp : isSpecial s'.url = isSpecialScheme url.scheme := by rw [isSpecial, h5]
      have hpart : ∃ c t, (s'.buffer = t ∨ s'.buffer = c :: t ∧ url.scheme = codes "file") ∧ t <:+: cleaned input := by
        rcases h4 with h4 | h4 | ⟨h4, h6⟩
        · exact ⟨0, _, Or.inl rfl, slice_infix (h2.1 (Or.inl h4))⟩
        · exact ⟨0, _, Or.inl rfl, slice_infix (h2.1 (Or.inr h4))⟩
        · rcases h2.2 h4 with h7 | ⟨_, c, t, h7, h8⟩
          · exact ⟨0, _, Or.inl rfl, slice_infix h7⟩
          · exact ⟨c, t, Or.inr ⟨h7, h6⟩, slice_infix h8⟩
      obtain ⟨c, t, h6, h7⟩ := hpart
      refine ⟨s'.buffer, c, t, h6, h7, ?_⟩
      rw [← hsp]
      rcases h1 with ⟨_, h1, h8⟩ | ⟨k, e, _, h8, h9, h10⟩ | ⟨_, e, _, h8, h9, _⟩
      · exact ⟨h1, Or.inl h8⟩
      · refine ⟨fun h11 h12 => ?_, Or.inr ⟨k, e, h8, h9, hostEq_none h10⟩⟩
        change parseHost toAscii fuel _ _ _ = _ at h8
        rw [h12, h11] at h8
        simp [parseHost] at h8
      · exact absurd (h8 ▸ h3) h9
    · exact (cause_far h1 h3 h4).elim
  · intro hfar
    obtain ⟨s', h1, h2, h3, h4⟩ := run_keep hx (P := Far) (fun _ _ h => h) (fun s h => far_step ho h) n _ ht hsl hfar rfl h
    exact cause_far h1 h3 h4

end Verif.Proof.UrlHost
