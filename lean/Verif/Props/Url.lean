import Verif.Proof.UrlHost
/- Properties C46-C49 and C77: the URL parser and the members of `basic_url`. -/
namespace Verif.Props.Url
open Verif.Model.Coder Verif.Model.Legacy Verif.Model.Percent Verif.Model.Host Verif.Model.Url
open Verif.Spec Verif.Spec.Percent Verif.Spec.Host Verif.Spec.Url
open Verif.Proof.UrlInner Verif.Proof.UrlEnds Verif.Proof.UrlValid Verif.Proof.UrlStep Verif.Proof.UrlApi Verif.Proof.UrlPort Verif.Proof.UrlHost
open Verif.Props.Percent

/-! ### Calls -/

/-- The setters of `basic_url`. -/
inductive Setter
  | protocol | username | password | host | hostname | port | pathname | search | hash
deriving DecidableEq

/-- The call of a setter. -/
def Setter.call (toAscii : List Nat → Ec → List Nat × Ec) (fuel n : Nat) (u : Url) (s : List Nat) : Setter → Ends Url
  | .protocol => setProtocol toAscii fuel n u s
  | .username => setUsername fuel u s
  | .password => setPassword fuel u s
  | .host => setHost toAscii fuel n u s
  | .hostname => setHostname toAscii fuel n u s
  | .port => setPort toAscii fuel n u s
  | .pathname => setPathname toAscii fuel n u s
  | .search => setSearch toAscii fuel n u s
  | .hash => setHash toAscii fuel n u s

/-- A setter stores a component at once, or hands the string and the record to the parser. -/
theorem call_cases (toAscii : List Nat → Ec → List Nat × Ec) (fuel n : Nat) (u : Url) (s : List Nat) (hs : ∀ c ∈ s, IsScalar c)
    (hf : s.length < fuel) (op : Setter) :
    (op.call toAscii fuel n u s = .stop u) ∨
    (cannotHaveCredentials u = none ∧ (op = .username ∨ op = .password ∨ op = .port) ∧ op.call toAscii fuel n u s = .ub) ∨
    (∃ v, op.call toAscii fuel n u s = .stop v ∧ (ValidUrl u → ValidUrl v)) ∨
    (∃ t v st, op.call toAscii fuel n u s = after (parseInto toAscii fuel n t v st) ∧ Entry u v st ∧ (∀ c ∈ t, IsScalar c) ∧
      t.length ≤ s.length + 1 ∧ (st = .host ∨ st = .hostname → (op = .host ∨ op = .hostname) ∧ t = s ∧ v = u)) := by
  have henc := utf8_enc s hs .userinfo fuel hf
  rw [show setOf .userinfo = isUserinfoSet from rfl] at henc
  have hcl := enc8_clean .userinfo (by decide) s hs
  cases op with
  | protocol =>
    refine Or.inr (Or.inr (Or.inr ⟨_, _, _, rfl, .protocol, ?_, by simp, by simp⟩))
    intro c hc
    rcases List.mem_append.mp hc with hc | hc
    · exact hs c hc
    · obtain rfl := List.mem_singleton.mp hc; exact scalar_small (by omega)
  | username =>
    show (setUsername fuel u s = _) ∨ _
    unfold Setter.call setUsername
    cases hh : cannotHaveCredentials u with
    | none => exact Or.inr (Or.inl ⟨rfl, by simp, rfl⟩)
    | some b =>
      cases b with
      | true => exact Or.inl rfl
      | false =>
        dsimp only
        rw [henc]
        obtain ⟨h1, h2, h3⟩ := may_have hh
        exact Or.inr (Or.inr (Or.inl ⟨_, rfl, fun hu => valid_setUsername hu h3 h1 _ fun c hc => (hcl c hc).1⟩))
  | password =>
    show (setPassword fuel u s = _) ∨ _
    unfold Setter.call setPassword
    cases hh : cannotHaveCredentials u with
    | none => exact Or.inr (Or.inl ⟨rfl, by simp, rfl⟩)
    | some b =>
      cases b with
      | true => exact Or.inl rfl
      | false =>
        dsimp only
        rw [henc]
        obtain ⟨h1, h2, h3⟩ := may_have hh
        exact Or.inr (Or.inr (Or.inl ⟨_, rfl, fun hu => valid_setPassword hu h3 h1 _ fun c hc => (hcl c hc).1⟩))
  | host =>
    show (setHost toAscii fuel n u s = _) ∨ _
    unfold Setter.call setHost
    cases hb : u.cannotBeBase with
    | true => exact Or.inl rfl
    | false => exact Or.inr (Or.inr (Or.inr ⟨_, _, _, rfl, .host hb, hs, by omega, by simp⟩))
  | hostname =>
    show (setHostname toAscii fuel n u s = _) ∨ _
    unfold Setter.call setHostname
    cases hb : u.cannotBeBase with
    | true => exact Or.inl rfl
    | false => exact Or.inr (Or.inr (Or.inr ⟨_, _, _, rfl, .hostname hb, hs, by omega, by simp⟩))
  | port =>
    show (setPort toAscii fuel n u s = _) ∨ _
    unfold Setter.call setPort
    cases hh : cannotHaveCredentials u with
    | none => exact Or.inr (Or.inl ⟨rfl, by simp, rfl⟩)
    | some b =>
      cases b with
      | true => exact Or.inl rfl
      | false =>
        obtain ⟨h1, h2, h3⟩ := may_have hh
        by_cases he : s = []
        · refine Or.inr (Or.inr (Or.inl ⟨_, if_pos he, fun hu => valid_setPort hu h1 h3 none (by simp)⟩))
        · exact Or.inr (Or.inr (Or.inr ⟨_, _, _, if_neg he, .port hh, hs, by omega, by simp⟩))
  | pathname =>
    show (setPathname toAscii fuel n u s = _) ∨ _
    unfold Setter.call setPathname
    by_cases hb : u.cannotBeBase = true
    · exact Or.inl (if_pos hb)
    · exact Or.inr (Or.inr (Or.inr ⟨_, _, _, if_neg hb, .pathname (by simpa using hb), hs, by omega, by simp⟩))
  | search =>
    show (setSearch toAscii fuel n u s = _) ∨ _
    unfold Setter.call setSearch
    by_cases he : s = []
    · exact Or.inr (Or.inr (Or.inl ⟨_, if_pos he, fun hu => valid_setQuery hu none (by simp)⟩))
    · exact Or.inr (Or.inr (Or.inr ⟨_, _, _, if_neg he, .search, fun c hc => hs c (withoutFirst_mem hc), (by have := withoutFirst_le 0x3F s; omega), by simp⟩))
  | hash =>
    show (setHash toAscii fuel n u s = _) ∨ _
    unfold Setter.call setHash
    by_cases he : s = []
    · exact Or.inr (Or.inr (Or.inl ⟨_, if_pos he, fun hu => valid_setFragment hu none (by simp)⟩))
    · exact Or.inr (Or.inr (Or.inr ⟨_, _, _, if_neg he, .hash, fun c hc => hs c (withoutFirst_mem hc), (by have := withoutFirst_le 0x23 s; omega), by simp⟩))

/-- The records a program can come by: the parser returns one for a string, an optional base and an encoding, and a setter
changes one. `domain_to_ascii` is `toAscii`. ISO-2022-JP, whose encoder need not end (C46), is left out. -/
inductive Reachable (toAscii : List Nat → Ec → List Nat × Ec) : Url → Prop
  | parse {input : List Nat} {base : Option Url} {name : Enc} {fuel n : Nat} {s' : St} : (∀ c ∈ input, IsScalar c) →
      (∀ b, base = some b → Reachable toAscii b) → name ≠ .ISO_2022_JP → 9 * input.length + 20 ≤ fuel →
      parse toAscii fuel n input base name = .stop (true, s') → Reachable toAscii s'.url
  | set {u v : Url} {op : Setter} {s : List Nat} {fuel n : Nat} : Reachable toAscii u → (∀ c ∈ s, IsScalar c) →
      9 * s.length + 29 ≤ fuel → op.call toAscii fuel n u s = .stop v → Reachable toAscii v

theorem output_jp {e : Enc} (h : e ≠ .ISO_2022_JP) : outputEncoding e ≠ .ISO_2022_JP := by
  unfold outputEncoding
  split
  all_goals first | exact h | simp

theorem reachable_valid {toAscii : List Nat → Ec → List Nat × Ec} (hA : ∀ q d, toAscii q none = (d, none) → d ≠ []) {u : Url}
    (h : Reachable toAscii u) : ValidUrl u := by
  induction h with
  | parse hs _ hn hf h ih => exact parse_valid _ _ _ _ hs hf hA _ (fun b hb => ih b hb) _ (output_jp hn) _ h
  | @set u v op s fuel n _ hs hf h ih =>
    rcases call_cases toAscii fuel n u s hs (by omega) op with h1 | ⟨_, _, h1⟩ | ⟨w, h1, h2⟩ | ⟨t, w, st, h1, h2, h3, h4, h5⟩
    · rw [h1] at h; injection h with h; exact h ▸ ih
    · rw [h1] at h; cases h
    · rw [h1] at h; injection h with h; exact h ▸ h2 ih
    · rw [h1] at h
      obtain ⟨b, s', h6, rfl⟩ := after_stop h
      exact into_valid _ _ _ _ h3 (by omega) hA _ _ (entry_shape ih h2 _ _ _) (entry_vo ih h2 _) b _ h6

/-! ### C46 termination -/

/-- C46, full statement: for some `k`, the parser and the setters need at most `k * (length + 1)` iterations, each with that
many iterations of an encoder. It is false of the code. -/
def C46_statement : Prop := ∃ k : Nat, ∀ (toAscii : List Nat → Ec → List Nat × Ec) (s : List Nat) (fuel n : Nat), (∀ c ∈ s, IsScalar c) →
  k * (s.length + 1) ≤ fuel → k * (s.length + 1) ≤ n →
    (∀ base name, parse toAscii fuel n s base name ≠ .more) ∧
    (∀ (u : Url) (op : Setter), ValidUrl u → op.call toAscii fuel n u s ≠ .more)

/-- C46, partial: every encoding but ISO-2022-JP, every base, every setter. Missing: ISO-2022-JP, for which it is false. -/
theorem C46_partial (toAscii : List Nat → Ec → List Nat × Ec) (s : List Nat) (fuel n : Nat) (hs : ∀ c ∈ s, IsScalar c)
    (hf : 9 * s.length + 29 ≤ fuel) (hn : 48 * s.length + 149 ≤ n) :
    (∀ base name, name ≠ .ISO_2022_JP → parse toAscii fuel n s base name ≠ .more) ∧
    (∀ (u : Url) (op : Setter), ValidUrl u → op.call toAscii fuel n u s ≠ .more) := by
  refine ⟨fun base name hname hm => ?_, fun u op hu hm => ?_⟩
  · rcases parse_ends toAscii fuel n s hs (by omega) base name (output_jp hname) (by omega) with ⟨b, s', h⟩ | ⟨h, _⟩
    · rw [h] at hm; cases hm
    · rw [h] at hm; cases hm
  · rcases call_cases toAscii fuel n u s hs (by omega) op with h1 | ⟨_, _, h1⟩ | ⟨w, h1, _⟩ | ⟨t, w, st, h1, h2, h3, h4, h5⟩
    · rw [h1] at hm; cases hm
    · rw [h1] at hm; cases hm
    · rw [h1] at hm; cases hm
    · rw [h1] at hm
      have hm := after_more hm
      rcases into_ends toAscii fuel n t h3 (by omega) w st (entry_shape hu h2 _ _ _) (by omega) with ⟨b, s', h⟩ | ⟨h, _⟩
      · rw [h] at hm; cases hm
      · rw [h] at hm; cases hm

/-- `domain_to_ascii` for domains that need no change. -/
def same (s : List Nat) (e : Ec) : List Nat × Ec := if s = [] then (s, some .idnaTranslationFailed) else (s, e)

theorem same_nonempty : ∀ q d, same q none = (d, none) → d ≠ [] := by
  intro q d h
  unfold same at h
  split at h
  · cases h
  · injection h with h; rw [← h]; assumption

/-- The record of `file:///`. -/
def root : Url := { scheme := codes "file", host := some .empty, path := [[]] }

theorem root_valid : ValidUrl root :=
  (file_core.setPath [[]] (empty_ok _)).valid fun _ => by simp

/-- C46. With ISO-2022-JP the query 😀 is never encoded. -/
theorem C46_diverges (toAscii : List Nat → Ec → List Nat × Ec) (fuel n : Nat) :
    parse toAscii fuel n [0x3F, 0x1F600] (some root) .ISO_2022_JP = .more := by
  rw [parse_run]
  have h0 : parseCtx toAscii fuel [0x3F, 0x1F600] (some root) = ⟨[0x3F, 0x1F600], some root, none, toAscii, fuel⟩ := by
    unfold parseCtx
    rw [show cleaned (trimmed [0x3F, 0x1F600]) = [0x3F, 0x1F600] by decide +kernel]
  have h0' : parseSt [0x3F, 0x1F600] .ISO_2022_JP = { state := .schemeStart, url := {}, enc := .ISO_2022_JP } := by
    unfold parseSt
    rw [show cleaned (trimmed [0x3F, 0x1F600]) = [0x3F, 0x1F600] by decide +kernel]
    rfl
  rw [h0, h0']
  generalize hx : (⟨[0x3F, 0x1F600], some root, none, toAscii, fuel⟩ : Ctx) = x
  have hl : (x.input.length : Int) = 2 := by subst hx; rfl
  have s1 : step x { state := .schemeStart, url := {}, enc := .ISO_2022_JP } =
      .cont { state := .noScheme, url := {}, enc := .ISO_2022_JP, pos := -1 } := by subst hx; rfl
  have s2 : step x { state := .noScheme, url := {}, enc := .ISO_2022_JP, pos := 0 } =
      .cont { state := .file, url := {}, enc := .ISO_2022_JP, pos := -1 } := by subst hx; rfl
  have s3 : step x { state := .file, url := {}, enc := .ISO_2022_JP, pos := 0 } =
      .cont { state := .query, url := { root with query := some [] }, enc := .ISO_2022_JP, pos := 0 } := by subst hx; rfl
  have s4 : step x { state := .query, url := { root with query := some [] }, enc := .ISO_2022_JP, pos := 1 } =
      .cont { state := .query, url := { root with query := some [] }, enc := .ISO_2022_JP, pos := 1, buffer := [0x1F600] } := by
    subst hx; rfl
  have s5 : step x { state := .query, url := { root with query := some [] }, enc := .ISO_2022_JP, pos := 2, buffer := [0x1F600] } = .more := by
    have hat : x.at 2 = 0x0A := by subst hx; rfl
    unfold step
    dsimp only
    rw [hat]
    unfold onQuery
    rw [if_neg (show ¬ (Enc.ISO_2022_JP ≠ Enc.UTF_8 ∧ (isSpecial { root with query := some [] } = false ∨
      root.scheme = lit "ws" ∨ root.scheme = lit "wss")) by decide)]
    rw [if_pos (Or.inr rfl)]
    dsimp only
    rw [jp_diverges]
  cases n with
  | zero => rfl
  | succ n =>
    rw [run, s1]
    dsimp only
    rw [if_pos (by omega)]
    cases n with
    | zero => rfl
    | succ n =>
      rw [show (-1 : Int) + 1 = 0 by rfl, run, s2]
      dsimp only
      rw [if_pos (by omega)]
      cases n with
      | zero => rfl
      | succ n =>
        rw [show (-1 : Int) + 1 = 0 by rfl, run, s3]
        dsimp only
        rw [if_pos (by omega)]
        cases n with
        | zero => rfl
        | succ n =>
          rw [show (0 : Int) + 1 = 1 by rfl, run, s4]
          dsimp only
          rw [if_pos (by omega)]
          cases n with
          | zero => rfl
          | succ n => rw [show (1 : Int) + 1 = 2 by rfl, run, s5]

theorem C46_statement_false : ¬ C46_statement := by
  rintro ⟨k, h⟩
  exact (h (fun s _ => (s, none)) [0x3F, 0x1F600] (k * 3) (k * 3) (by decide) (Nat.le_refl _) (Nat.le_refl _)).1 _ _
    (C46_diverges _ _ _)

/-! ### C47 components -/

/-- C47. In every record the components are free of the code points of their percent-encode sets; in particular they are
printable ASCII. `toAscii` is assumed not to return an empty domain without an error. -/
theorem C47 {toAscii : List Nat → Ec → List Nat × Ec} (hA : ∀ q d, toAscii q none = (d, none) → d ≠ []) {u : Url}
    (h : Reachable toAscii u) :
    (∀ c ∈ u.username, ¬ InSet .userinfo c) ∧ (∀ c ∈ u.password, ¬ InSet .userinfo c) ∧
    (∀ p ∈ u.path, ∀ c ∈ p, ¬ InSet (if u.cannotBeBase then .c0 else .path) c) ∧
    (∀ q, u.query = some q → ∀ c ∈ q, ¬ InSet .query c ∧ (Special u.scheme → ¬ InSet .specialQuery c)) ∧
    (∀ f, u.fragment = some f → ∀ c ∈ f, ¬ InSet .fragment c) := by
  have v := reachable_valid hA h
  refine ⟨v.username, v.password, ?_, v.query, v.fragment⟩
  intro p hp c hc
  cases hb : u.cannotBeBase with
  | false => exact ((v.path hb p hp).2 c hc).1
  | true =>
    obtain ⟨_, q, hq, hqc⟩ := v.cannot hb
    rw [hq] at hp
    obtain rfl := List.mem_singleton.mp hp
    exact (hqc c hc).1

/-- `mailto:x`, U+0001, `?é`. -/
example : ∃ u, Reachable same u ∧ u.path = [codes "x%01"] ∧ u.query = some (codes "%C3%A9") := by
  have h : (match parse same 200 200 (codes "mailto:x" ++ [1] ++ codes "?é") none .UTF_8 with
    | .stop (true, s) => decide (s.url.path = [codes "x%01"] ∧ s.url.query = some (codes "%C3%A9")) | _ => false) = true := by
    decide +kernel
  split at h
  · rename_i s hr
    refine ⟨s.url, .parse (by decide) (by simp) (by decide) (by decide) hr, of_decide_eq_true h⟩
  · cases h

/-- C47. Printable ASCII. -/
theorem C47_ascii (p : PSet) (c : Nat) (h : ¬ InSet p c) : 0x20 ≤ c ∧ c ≤ 0x7E := by
  unfold InSet at h
  omega

/-! ### C49 hosts and dot segments -/

/-- C49. Special URLs have a host, `file` URLs no credentials and no port, and there are no dot segments in a path that has
segments. -/
theorem C49 {toAscii : List Nat → Ec → List Nat × Ec} (hA : ∀ q d, toAscii q none = (d, none) → d ≠ []) {u : Url}
    (h : Reachable toAscii u) :
    (Special u.scheme → u.scheme ≠ codes "file" → ∃ k, u.host = some k ∧ ¬ Blank k) ∧
    (u.scheme = codes "file" → u.host ≠ none ∧ u.username = [] ∧ u.password = [] ∧ u.port = none) ∧
    (u.cannotBeBase = false → ∀ p ∈ u.path, ¬ DotSegment p) := by
  have v := reachable_valid hA h
  refine ⟨fun hs hf => ?_, fun hf => ⟨(v.special (by rw [hf]; exact file_special)).1, v.file hf⟩, fun hb p hp => (v.path hb p hp).1⟩
  obtain ⟨h1, _, _, h2⟩ := v.special hs
  cases hh : u.host with
  | none => exact absurd hh h1
  | some k =>
    refine ⟨k, rfl, fun hk => ?_⟩
    have hg := v.host k hh
    cases k with
    | empty => exact h2 hf hh
    | «opaque» s => exact hg.1 hs
    | _ => exact hk

/-- `HTTP://u@h:80/a/../%2E/b c`. -/
example : ∃ u, Reachable same u ∧ u.path = [codes "b%20c"] ∧ u.host = some (.domain (codes "h")) ∧ u.port = none := by
  have h : (match parse same 400 400 (codes "HTTP://u@h:80/a/../%2E/b c") none .UTF_8 with
    | .stop (true, s) => decide (s.url.path = [codes "b%20c"] ∧ s.url.host = some (.domain (codes "h")) ∧ s.url.port = none)
    | _ => false) = true := by decide +kernel
  split at h
  · rename_i s hr
    refine ⟨s.url, .parse (by decide) (by simp) (by decide) (by decide) hr, of_decide_eq_true h⟩
  · cases h

/-- C49. More of the shape of records: the scheme is one, credentials and ports belong to a host, default ports are dropped, a
special URL has a path. -/
theorem C49_shape {toAscii : List Nat → Ec → List Nat × Ec} (hA : ∀ q d, toAscii q none = (d, none) → d ≠ []) {u : Url}
    (h : Reachable toAscii u) : ValidUrl u := reachable_valid hA h

/-! ### C48 ports -/

/-- The URL may have a port: a host with text, and not `file`. -/
def MayHavePort (u : Url) : Prop :=
  u.scheme ≠ codes "file" ∧ ∃ d, d ≠ [] ∧ (u.host = some (.domain d) ∨ u.host = some (.opaque d))

theorem may_iff {u : Url} (hu : ValidUrl u) : cannotHaveCredentials u = some false ↔ MayHavePort u := by
  constructor
  · intro h
    refine ⟨(may_have h).1, ?_⟩
    unfold cannotHaveCredentials at h
    cases hh : u.host with
    | none => rw [hh] at h; simp at h
    | some k =>
      rw [hh] at h
      cases k with
      | domain d => exact ⟨d, by rintro rfl; simp [hostEq] at h, Or.inl rfl⟩
      | «opaque» d => exact ⟨d, by rintro rfl; simp [hostEq] at h, Or.inr rfl⟩
      | _ => simp [hostEq] at h
  · rintro ⟨hf, d, hd, hh⟩
    have hb : u.cannotBeBase = false := by
      cases hb : u.cannotBeBase with
      | false => rfl
      | true =>
        have := (hu.cannot hb).1
        rcases hh with hh | hh <;> rw [this] at hh <;> cases hh
    have hf : ¬ u.scheme = lit "file" := hf
    rcases hh with hh | hh <;> simp [cannotHaveCredentials, hh, hostEq, hd, hb, hf]

/-- C48, full statement: a decimal number to 65535 is the port, the default port is dropped, a larger number changes nothing. It
is false of the code. -/
def C48_statement : Prop := ∀ (toAscii : List Nat → Ec → List Nat × Ec) (u : Url) (ds : List Nat) (v : Nat), ValidUrl u → MayHavePort u →
  Numeral 10 ds v → ∃ k, ∀ fuel n, k ≤ n → setPort toAscii fuel n u ds =
    .stop (if v ≤ 65535 then { u with port := if (u.scheme, some v) ∈ specials then none else some v } else u)

/-- C48. What the port setter does to every number: five digits at most, 65534 at most. -/
theorem C48_exact (toAscii : List Nat → Ec → List Nat × Ec) (u : Url) (ds : List Nat) (v : Nat) (hu : ValidUrl u) (hm : MayHavePort u)
    (hd : Numeral 10 ds v) (fuel n : Nat) (hn : ds.length < n) : setPort toAscii fuel n u ds =
    .stop (if ds.length ≤ 5 ∧ v < 65535 then { u with port := if (u.scheme, some v) ∈ specials then none else some v } else u) :=
  setPort_eq toAscii fuel n u ds v ((may_iff hu).mpr hm) hd hn

/-- C48, partial: numbers of at most five digits but 65535. Missing: 65535, and leading zeros beyond five digits, both rejected. -/
theorem C48_partial (toAscii : List Nat → Ec → List Nat × Ec) (u : Url) (ds : List Nat) (v : Nat) (hu : ValidUrl u) (hm : MayHavePort u)
    (hd : Numeral 10 ds v) (h5 : ds.length ≤ 5 ∨ 65535 < v) (hv : v ≠ 65535) (fuel n : Nat) (hn : ds.length < n) :
    setPort toAscii fuel n u ds =
      .stop (if v ≤ 65535 then { u with port := if (u.scheme, some v) ∈ specials then none else some v } else u) := by
  rw [C48_exact toAscii u ds v hu hm hd fuel n hn]
  by_cases h : v ≤ 65535
  · rw [if_pos h, if_pos (by omega)]
  · rw [if_neg h, if_neg (by omega)]

/-- The record of `http://h/`. -/
def httpH : Url := { scheme := codes "http", host := some (.domain (codes "h")), path := [[]] }

theorem http_valid (k : Host) (hk : GoodHost True k) (he : k ≠ .empty) : ValidUrl { httpH with host := some k } where
  scheme := ⟨0x68, codes "ttp", show codes "http" = _ by decide, by unfold Lower; decide, by
    intro c hc
    have : c = 0x74 ∨ c = 0x70 := by simpa [codes] using hc
    left; unfold Lower; omega⟩
  username := by simp [httpH]
  password := by simp [httpH]
  host := by
    rintro h ⟨⟩
    have : Special httpH.scheme ↔ True := by simp only [iff_true]; decide
    show GoodHost (Special httpH.scheme) k
    rw [propext this]; exact hk
  port := by simp [httpH]
  query := by simp [httpH]
  fragment := by simp [httpH]
  special := fun _ => ⟨by simp, by simp [httpH], rfl, fun _ h => he (by injection h)⟩
  file := fun h => absurd (show codes "http" = codes "file" from h) (by decide)
  authority := by simp [httpH]
  cannot := by simp [httpH]
  path := by
    intro _ p hp
    obtain rfl : p = [] := by simpa [httpH] using hp
    exact ⟨by decide, by simp⟩

theorem httpH_valid : ValidUrl httpH := http_valid (.domain (codes "h")) ⟨trivial, by decide, by
  intro c hc
  obtain rfl : c = 0x68 := by simpa [codes] using hc
  decide⟩ (by simp)

theorem httpH_may : MayHavePort httpH := ⟨by decide, codes "h", by decide, Or.inl rfl⟩

example : Numeral 10 (codes "8080") 8080 ∧ Numeral 10 (codes "080") 80 ∧ Numeral 10 (codes "65536") 65536 ∧
    (httpH.scheme, some 80) ∈ specials ∧ (httpH.scheme, some 8080) ∉ specials :=
  ⟨(Verif.Proof.Host4.numeral_iff _ _ _).mpr (by decide), (Verif.Proof.Host4.numeral_iff _ _ _).mpr (by decide), (Verif.Proof.Host4.numeral_iff _ _ _).mpr (by decide), by decide, by decide⟩

theorem C48_statement_false : ¬ C48_statement := by
  intro h
  have hd : Numeral 10 (codes "65535") 65535 := (Verif.Proof.Host4.numeral_iff _ _ _).mpr (by decide)
  obtain ⟨k, hk⟩ := h same httpH _ _ httpH_valid httpH_may hd
  have h1 := hk 0 (k + 6) (by omega)
  rw [C48_exact same httpH _ _ httpH_valid httpH_may hd 0 (k + 6) (by have : (codes "65535").length = 5 := by decide
                                                                      omega)] at h1
  rw [if_neg (by omega), if_pos (Nat.le_refl _), if_neg (by decide)] at h1
  simp [httpH] at h1

/-! ### C77 undefined behaviour -/

/-- C77, full statement: no call of the parser and of the setters is undefined. It is false of the code. -/
def C77_statement : Prop := ∀ (toAscii : List Nat → Ec → List Nat × Ec) (s : List Nat) (fuel n : Nat), (∀ c ∈ s, IsScalar c) →
    (∀ base, parse toAscii fuel n s base .UTF_8 ≠ .ub) ∧
    (∀ (u : Url) (op : Setter), ValidUrl u → op.call toAscii fuel n u s ≠ .ub)

/-- C77. A user name, a password or a port cannot be given to a URL whose host is an address. -/
theorem C77_address (toAscii : List Nat → Ec → List Nat × Ec) (fuel n : Nat) (u : Url) (k : Host) (h : u.host = some k)
    (hk : ∀ d, k ≠ .domain d ∧ k ≠ .opaque d) (s : List Nat) :
    setUsername fuel u s = .ub ∧ setPassword fuel u s = .ub ∧ setPort toAscii fuel n u s = .ub := by
  have : cannotHaveCredentials u = none := by
    unfold cannotHaveCredentials
    rw [h]
    cases k with
    | domain d => exact absurd rfl (hk d).1
    | «opaque» d => exact absurd rfl (hk d).2
    | _ => rfl
  simp [setUsername, setPassword, setPort, this]

/-- `http://1.2.3.4/`. -/
example : ValidUrl { httpH with host := some (.ipv4 0x01020304) } := http_valid _ ⟨trivial, by decide⟩ (by simp)

/-- C77. `file://1.2.3.4/` cannot be parsed. -/
theorem C77_file : (match parse same 100 100 (codes "file://1.2.3.4/") none .UTF_8 with | .ub => true | _ => false) = true := by
  decide +kernel

theorem C77_statement_false : ¬ C77_statement := by
  intro h
  have h1 := (h same [] 100 100 (by simp)).2 { httpH with host := some (.ipv4 0x01020304) } .username
    (http_valid _ ⟨trivial, by decide⟩ (by simp))
  exact h1 (C77_address same 100 100 { httpH with host := some (.ipv4 0x01020304) } (.ipv4 0x01020304) rfl (by simp) []).1

/-- `s` without tabs and newlines. -/
def unbroken (s : List Nat) : List Nat := s.filter fun c => decide (c ∉ [0x09, 0x0A, 0x0D])

/-- C77, partial: what is undefined comes from a part of the string that is taken for a host: the host parser is undefined for it
(C43, C44, C74), or it is an address, in a `file` URL. User name, password and port need a host that is a domain or text. The
other setters are never undefined. Missing: these calls, for which it is false, and encodings other than UTF-8. -/
theorem C77_partial (toAscii : List Nat → Ec → List Nat × Ec) (s : List Nat) (fuel n : Nat) (hs : ∀ c ∈ s, IsScalar c)
    (hf : 9 * s.length + 29 ≤ fuel) :
    (∀ base, parse toAscii fuel n s base .UTF_8 = .ub → ∃ b sp, b <:+: unbroken s ∧ BadHost toAscii fuel sp b) ∧
    (∀ (u : Url) (op : Setter), ValidUrl u → op.call toAscii fuel n u s = .ub →
      ((op = .username ∨ op = .password ∨ op = .port) ∧ ∃ k, u.host = some k ∧ ∀ d, k ≠ .domain d ∧ k ≠ .opaque d) ∨
      ((op = .host ∨ op = .hostname) ∧ ∃ b c t, (b = t ∨ b = c :: t ∧ u.scheme = codes "file") ∧ t <:+: unbroken s ∧
        BadHost toAscii fuel (decide (Special u.scheme)) b)) := by
  have hclean : ∀ t, cleaned t = unbroken t := by
    intro t
    unfold cleaned unbroken
    congr 1
    funext c
    by_cases h1 : c = 9 <;> by_cases h2 : c = 10 <;> by_cases h3 : c = 13 <;> simp [Verif.Model.Infra.isAsciiTabOrNewline, h1, h2, h3]
  refine ⟨fun base h => ?_, fun u op hu h => ?_⟩
  · obtain ⟨b, sp, h1, h2⟩ := parse_ub toAscii fuel n s base hs (by omega) h
    refine ⟨b, sp, h1.trans ?_, h2⟩
    rw [hclean]
    refine List.IsInfix.filter _ ?_
    unfold trimmed
    have h3 : ∀ l : List Nat, l.dropWhile Verif.Model.Infra.isC0ControlOrSpace <:+ l := fun l => List.dropWhile_suffix _
    have h4 := (h3 (s.dropWhile Verif.Model.Infra.isC0ControlOrSpace).reverse)
    have h5 := List.reverse_prefix.mpr h4
    rw [List.reverse_reverse] at h5
    exact h5.isInfix.trans (h3 s).isInfix
  · rcases call_cases toAscii fuel n u s hs (by omega) op with h1 | ⟨h1, h2, _⟩ | ⟨w, h1, _⟩ | ⟨t, w, st, h1, h2, h3, h4, h5⟩
    · rw [h1] at h; cases h
    · refine Or.inl ⟨h2, ?_⟩
      unfold cannotHaveCredentials at h1
      cases hh : u.host with
      | none => rw [hh] at h1; cases h1
      | some k =>
        refine ⟨k, rfl, fun d => ⟨?_, ?_⟩⟩ <;> (rintro rfl; rw [hh] at h1; simp [hostEq] at h1)
    · rw [h1] at h; cases h
    · rw [h1] at h
      obtain ⟨h6, h7⟩ := into_ub toAscii fuel n t w st h3 (by omega) (entry_shape hu h2 _ _ _) (after_ub h)
      by_cases hst : st = .host ∨ st = .hostname
      · obtain ⟨h8, rfl, rfl⟩ := h5 hst
        obtain ⟨b, c, t, h9, h10, h11⟩ := h6 hst
        refine Or.inr ⟨h8, b, c, t, h9, by rw [← hclean]; exact h10, ?_⟩
        have : isSpecialScheme w.scheme = decide (Special w.scheme) := by
          rw [Bool.eq_iff_iff, decide_eq_true_iff]; exact special_iff _
        rw [← this]; exact h11
      · exfalso
        apply h7
        cases h2 <;> simp_all [Far, intoSt]

end Verif.Props.Url
