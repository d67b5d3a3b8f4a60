import Verif.Proof.UrlSetters
import Verif.Props.Url
/- Properties C114-C117: the setters of a URL. -/
namespace Verif.Props.UrlSet
open Verif.Model.Coder Verif.Model.Legacy Verif.Model.Percent Verif.Model.Host Verif.Model.Url
open Verif.Spec Verif.Spec.Infra Verif.Spec.Percent Verif.Spec.Host Verif.Spec.Url Verif.Spec.UrlSet
open Verif.Proof.UrlInner Verif.Proof.UrlEnds Verif.Proof.UrlApi Verif.Proof.UrlAgain Verif.Proof.UrlSetters
open Verif.Props.Percent Verif.Props.Url

/-! ### C114: the parts that are not set -/

/-- Two records that differ at most in what a setter is named after; `host` is host name and port, and a new protocol may
drop the port. -/
def OnlyIn (op : Setter) (u v : Url) : Prop :=
  match op with
  | .protocol => ∃ t p, v = { u with scheme := t, port := p } ∧ (p = u.port ∨ p = none)
  | .username => ∃ t, v = { u with username := t }
  | .password => ∃ t, v = { u with password := t }
  | .host => ∃ h p, v = { u with host := h, port := p }
  | .hostname => ∃ h, v = { u with host := h }
  | .port => ∃ p, v = { u with port := p }
  | .pathname => ∃ p, v = { u with path := p }
  | .search => ∃ q, v = { u with query := q }
  | .hash => ∃ f, v = { u with fragment := f }

theorem OnlyIn.refl (op : Setter) (u : Url) : OnlyIn op u u := by
  cases op
  · exact ⟨_, _, rfl, Or.inl rfl⟩
  all_goals first | exact ⟨_, _, rfl⟩ | exact ⟨_, rfl⟩

/-- C114. Whatever string a setter is called with, and whatever URL it is called on, it leaves every other part of the URL as it
is. -/
theorem C114 (toAscii : List Nat → Ec → List Nat × Ec) (fuel n : Nat) (u v : Url) (s : List Nat) (op : Setter)
    (h : op.call toAscii fuel n u s = .stop v) : OnlyIn op u v := by
  cases op with
  | protocol => exact into_same (o := .schemeStart) (u := u) ⟨_, _, rfl, Or.inl rfl⟩ (by simp [stays]) h
  | username =>
    change setUsername fuel u s = _ at h
    unfold setUsername at h
    repeat' split at h
    all_goals first | (cases h; done) | (injection h with h; subst h; exact ⟨_, rfl⟩)
  | password =>
    change setPassword fuel u s = _ at h
    unfold setPassword at h
    repeat' split at h
    all_goals first | (cases h; done) | (injection h with h; subst h; exact ⟨_, rfl⟩)
  | host =>
    change setHost toAscii fuel n u s = _ at h
    unfold setHost at h
    split at h
    · injection h with h; subst h; exact OnlyIn.refl _ _
    · exact into_same (o := .host) (u := u) ⟨_, _, rfl⟩ (by simp [stays]) h
  | hostname =>
    change setHostname toAscii fuel n u s = _ at h
    unfold setHostname at h
    split at h
    · injection h with h; subst h; exact OnlyIn.refl _ _
    · exact into_same (o := .hostname) (u := u) ⟨_, rfl⟩ (by simp [stays]) h
  | port =>
    change setPort toAscii fuel n u s = _ at h
    unfold setPort at h
    split at h
    · cases h
    · injection h with h; subst h; exact OnlyIn.refl _ _
    · split at h
      · injection h with h; subst h; exact ⟨_, rfl⟩
      · exact into_same (o := .port) (u := u) ⟨_, rfl⟩ (by simp [stays]) h
  | pathname =>
    change setPathname toAscii fuel n u s = _ at h
    unfold setPathname at h
    split at h
    · injection h with h; subst h; exact OnlyIn.refl _ _
    · exact into_same (o := .pathStart) (u := u) ⟨_, rfl⟩ (by simp [stays]) h
  | search =>
    change setSearch toAscii fuel n u s = _ at h
    unfold setSearch at h
    split at h
    · injection h with h; subst h; exact ⟨_, rfl⟩
    · exact into_same (o := .query) (u := u) ⟨_, rfl⟩ (by simp [stays]) h
  | hash =>
    change setHash toAscii fuel n u s = _ at h
    unfold setHash at h
    split at h
    · injection h with h; subst h; exact ⟨_, rfl⟩
    · exact into_same (o := .fragment) (u := u) ⟨_, rfl⟩ (by simp [stays]) h

/-- A path with a question mark and a hash in it gets to the path. -/
example : ∃ v, Setter.pathname.call same 400 400 httpH (codes "a/../b?c#d") = .stop v ∧ v ≠ httpH ∧ OnlyIn .pathname httpH v := by
  have h : Setter.pathname.call same 400 400 httpH (codes "a/../b?c#d") = .stop { httpH with path := [codes "b%3Fc%23d"] } := by
    have : decide (Setter.pathname.call same 400 400 httpH (codes "a/../b?c#d") = .stop { httpH with path := [codes "b%3Fc%23d"] }) = true := by
      decide +kernel
    exact of_decide_eq_true this
  exact ⟨_, h, by decide, C114 _ _ _ _ _ _ _ h⟩

/-! ### C115: what is stored -/

theorem cleaned_eq (t : List Nat) : cleaned t = joined t := by
  unfold cleaned joined
  congr 1
  funext c
  by_cases h1 : c = 9 <;> by_cases h2 : c = 10 <;> by_cases h3 : c = 13 <;> simp [Verif.Model.Infra.isAsciiTabOrNewline, h1, h2, h3]

theorem cleaned_ne (t : List Nat) : ∀ c ∈ cleaned t, c ≠ 0x0A := fun _ h => (cleaned_mem h).2

theorem into_cinv' (toAscii : List Nat → Ec → List Nat × Ec) (fuel : Nat) (t : List Nat) (st : State) (hs : ∀ c ∈ t, IsScalar c)
    (hf : 9 * t.length + 20 ≤ fuel) : CInv (intoCtx toAscii fuel t st) :=
  ⟨fun c hc => hs c (cleaned_mem hc).1, by have := cleaned_le t; show 9 * (cleaned t).length + 20 ≤ fuel; omega⟩

/-- From the reading of a part to a setter. -/
theorem into_stops {toAscii : List Nat → Ec → List Nat × Ec} {fuel : Nat} {t : List Nat} {st : State} {v w : Url}
    (h : Stops (intoCtx toAscii fuel t st) ⟨st, v, [], cleaned t, false, false, false⟩ w) :
    ∃ k, ∀ n, k ≤ n → after (parseInto toAscii fuel n t v st) = .stop w := by
  obtain ⟨b, s', k, hu, hk⟩ := h (if cleaned t ≠ t then some .validationError else none)
  refine ⟨k, fun n hn => ?_⟩
  have := hk (n - k)
  rw [show n - k + k = n by omega] at this
  rw [into_run]
  have e : (⟨st, v, [], cleaned t, false, false, false⟩ : Cfg).st (intoCtx toAscii fuel t st) (if cleaned t ≠ t then some .validationError else none) =
      intoSt t v st := by
    unfold Cfg.st intoSt intoCtx
    simp
  rw [e] at this
  rw [this]
  exact congrArg Ends.stop hu

theorem unmarked_eq (c : Nat) (s : List Nat) : withoutFirst c s = unmarked (fun d => decide (d = c)) s := by
  unfold withoutFirst unmarked
  cases s with
  | nil => rfl
  | cons d s => by_cases h : d = c <;> simp [h]

/-- C115. What the setters store: user name and password percent-encoded as they are, query and fragment percent-encoded without
one leading mark, tabs and line breaks (with an apostrophe escaped in the queries of special URLs), nothing for an empty query or
fragment, and as path the segments between slashes with `.` and `..` carried out. -/
theorem C115 (toAscii : List Nat → Ec → List Nat × Ec) (u : Url) (s : List Nat) (fuel : Nat) (hs : ∀ c ∈ s, IsScalar c)
    (hf : 9 * s.length + 20 ≤ fuel) :
    (ValidUrl u → MayHavePort u → setUsername fuel u s = .stop { u with username := encoded .userinfo s } ∧
      setPassword fuel u s = .stop { u with password := encoded .userinfo s }) ∧
    (∃ k, ∀ n, k ≤ n → setSearch toAscii fuel n u s = .stop { u with query := queryOf u.scheme s }) ∧
    (∃ k, ∀ n, k ≤ n → setHash toAscii fuel n u s = .stop { u with fragment := fragmentOf s }) ∧
    (u.cannotBeBase = false → ∃ k, ∀ n, k ≤ n → setPathname toAscii fuel n u s = .stop { u with path := pathOf u.scheme (joined s) }) := by
  refine ⟨fun hu hm => ?_, ?_, ?_, fun hb => ?_⟩
  · have henc := utf8_enc s hs .userinfo fuel (by omega)
    rw [show setOf .userinfo = isUserinfoSet from rfl] at henc
    unfold setUsername setPassword
    rw [(may_iff hu).mpr hm]
    dsimp only
    rw [henc]
    exact ⟨rfl, rfl⟩
  · unfold setSearch queryOf
    by_cases he : s = []
    · exact ⟨0, fun n _ => by rw [if_pos he, if_pos he]⟩
    · simp only [if_neg he]
      have hl := withoutFirst_le 0x3F s
      refine into_stops (finishes_stops ?_)
      have := query_reads (x := intoCtx toAscii fuel (withoutFirst 0x3F s) .query) (o := .query) rfl
        (into_cinv' _ _ _ _ (fun c hc => hs c (withoutFirst_mem hc)) (by omega)) u (cleaned (withoutFirst 0x3F s)) [] (cleaned_ne _) List.suffix_rfl
      rw [List.nil_append, cleaned_eq] at this
      rw [cleaned_eq, ← unmarked_eq]
      exact this
  · unfold setHash fragmentOf
    by_cases he : s = []
    · exact ⟨0, fun n _ => by rw [if_pos he, if_pos he]⟩
    · simp only [if_neg he]
      have hl := withoutFirst_le 0x23 s
      refine into_stops (finishes_stops ?_)
      have := fragment_reads (x := intoCtx toAscii fuel (withoutFirst 0x23 s) .fragment)
        (into_cinv' _ _ _ _ (fun c hc => hs c (withoutFirst_mem hc)) (by omega)) u (cleaned (withoutFirst 0x23 s)) [] (cleaned_ne _) List.suffix_rfl
      rw [List.nil_append, cleaned_eq] at this
      rw [cleaned_eq, ← unmarked_eq]
      exact this
  · unfold setPathname
    simp only [hb, Bool.false_eq_true, if_false]
    refine into_stops (finishes_stops ?_)
    have := pathStart_reads (x := intoCtx toAscii fuel s .pathStart) (o := .pathStart) rfl (into_cinv' _ _ _ _ hs hf) u (cleaned s) (cleaned_ne _) List.suffix_rfl
    rw [cleaned_eq] at this ⊢
    rw [hb] at this
    exact this

/-- `/a/./b/../c%2E\d` is the path `a`, `c%2E`, `d` of a special URL. -/
example : pathOf (codes "http") (joined (codes "/a/./b/../c%2E\\d")) = [codes "a", codes "c%2E", codes "d"] := by decide +kernel

/-- Of a URL of another kind the last two are one segment. -/
example : pathOf (codes "x") (joined (codes "/a/./b/../c%2E\\d")) = [codes "a", codes "c%2E\\d"] := by decide +kernel

/-- The drive letter of a `file` URL stays. -/
example : pathOf (codes "file") (joined (codes "/C|/../x/.")) = [codes "C:", codes "x", []] := by decide +kernel

example : ValidUrl httpH ∧ MayHavePort httpH ∧ httpH.cannotBeBase = false := ⟨httpH_valid, httpH_may, rfl⟩

example : queryOf (codes "http") (codes "?a b'\tc") = some (codes "a%20b%27c") ∧ queryOf (codes "x") (codes "??a b'") = some (codes "?a%20b'") ∧
    fragmentOf (codes "#a b") = some (codes "a%20b") ∧ fragmentOf [] = none := by decide +kernel

/-! ### C116: the protocol -/

/-- C116. The protocol setter takes the text in front of the first colon: if it is a scheme the URL can take on, the URL gets it in
small letters and loses a port that is the default of the new scheme; if not, nothing changes. -/
theorem C116 (toAscii : List Nat → Ec → List Nat × Ec) (u : Url) (s w : List Nat) (fuel : Nat) (hu : ValidUrl u)
    (hw : w = (joined s).takeWhile fun c => decide (c ≠ 0x3A)) :
    (SchemeText w ∧ Takes u (w.map lower) → ∃ k, ∀ n, k ≤ n → setProtocol toAscii fuel n u s = .stop (renamed u (w.map lower))) ∧
    (¬ (SchemeText w ∧ Takes u (w.map lower)) → ∃ k, ∀ n, k ≤ n → setProtocol toAscii fuel n u s = .stop u) := by
  have hf : u.scheme = codes "file" → u.host ≠ none := fun h => (hu.special ⟨none, by rw [h]; decide⟩).1
  have hsplit : ∃ r, cleaned (s ++ [0x3A]) = w ++ 0x3A :: r := by
    have e : cleaned (s ++ [0x3A]) = joined s ++ [0x3A] := by
      rw [cleaned_eq]; unfold joined; rw [List.filter_append]; rfl
    rw [e, hw]
    generalize joined s = t
    induction t with
    | nil => exact ⟨[], rfl⟩
    | cons c t ih =>
      by_cases hc : c = 0x3A
      · exact ⟨t ++ [0x3A], by simp [hc]⟩
      · obtain ⟨r, hr⟩ := ih
        exact ⟨r, by simp [hc]; simpa using hr⟩
  obtain ⟨r, hr⟩ := hsplit
  have hne : ∀ c ∈ w, c ≠ 0x3A := by
    rw [hw]
    intro c hc
    simpa using List.all_takeWhile (p := fun c => decide (c ≠ 0x3A)) (l := joined s) |> fun h => List.all_eq_true.mp h c hc
  obtain ⟨h1, h2⟩ := protocol_reads (x := intoCtx toAscii fuel (s ++ [0x3A]) .schemeStart) (o := .schemeStart) rfl u hf w r hne (by
    show _ <:+ cleaned (s ++ [0x3A])
    rw [hr]
    exact List.suffix_rfl)
  rw [← hr] at h1 h2
  exact ⟨fun h => into_stops (h1 h), fun h => into_stops (h2 h)⟩

/-- `HTTPS:x` makes a URL an `https` URL and drops its port 443. -/
example : SchemeText (codes "HTTPS") ∧ Takes { httpH with port := some 443 } ((codes "HTTPS").map lower) ∧
    renamed { httpH with port := some 443 } ((codes "HTTPS").map lower) = { httpH with scheme := codes "https" } ∧
    (joined (codes "HTTPS:x")).takeWhile (fun c => decide (c ≠ 0x3A)) = codes "HTTPS" := by
  refine ⟨⟨_, _, rfl, ?_, ?_⟩, ?_, by decide, by decide⟩
  · unfold Lower; decide
  · unfold Lower; decide
  · unfold Takes; decide

/-- An `http` URL does not become a `mailto` URL. -/
example : ¬ Takes httpH (codes "mailto") := by unfold Takes; decide

/-! ### C117: the host name -/

/-- C117, full statement: a URL that can have a host gets the one that the host parser makes of a text. It is false of `file` URLs.
`localhost`, which is no host of a `file` URL, is left out. -/
def C117_statement : Prop := ∀ (toAscii : List Nat → Ec → List Nat × Ec) (fuel : Nat) (u : Url) (w : List Nat) (h : Host) (e : Ec), ValidUrl u →
  u.cannotBeBase = false → w ≠ [] → joined w = w → hostPart (decide (Special u.scheme)) false w = (w, []) →
  parseHost toAscii fuel w (!decide (Special u.scheme)) none = .stop (h, e) → h ≠ .null → h ≠ .domain (codes "localhost") →
  ∃ k, ∀ n, k ≤ n → setHostname toAscii fuel n u w = .stop { u with host := some h }

/-- C117, partial: every string and every URL but `file` URLs. The text in front of a colon outside brackets, a slash, a question
mark or a hash is the new host if the host parser makes one of it; if it fails, or if the text is empty and the URL needs a host,
nothing changes. Missing: `file` URLs, for which it is false, and texts for which the host parser is undefined (C43, C44, C74). -/
theorem C117_partial (toAscii : List Nat → Ec → List Nat × Ec) (u : Url) (s w r : List Nat) (fuel : Nat) (hfile : u.scheme ≠ codes "file")
    (hb : u.cannotBeBase = false) (hw : hostPart (decide (Special u.scheme)) false (joined s) = (w, r)) :
    (w = [] ∧ NeedsHost u r → ∃ k, ∀ n, k ≤ n → setHostname toAscii fuel n u s = .stop u) ∧
    (¬ (w = [] ∧ NeedsHost u r) → ∀ h e, parseHost toAscii fuel w (!decide (Special u.scheme)) none = .stop (h, e) →
      ∃ k, ∀ n, k ≤ n → setHostname toAscii fuel n u s = .stop (if h = .null then u else { u with host := some h })) := by
  have hsp : isSpecial u = decide (Special u.scheme) := by
    rw [Bool.eq_iff_iff, decide_eq_true_eq]
    exact Verif.Proof.UrlValid.special_iff _
  have key := hostname_reads (x := intoCtx toAscii fuel s .hostname) rfl u hfile (cleaned s) [] false (cleaned_ne _) List.suffix_rfl
  rw [List.nil_append, cleaned_eq, hw] at key
  dsimp only at key
  unfold setHostname
  simp only [hb, Bool.false_eq_true, if_false]
  constructor
  · intro hn
    refine into_stops ?_
    rw [cleaned_eq]
    exact key u (by rw [if_pos hn])
  · intro hn h e hp
    refine into_stops ?_
    rw [cleaned_eq]
    refine key _ ?_
    rw [if_neg hn]
    exact ⟨h, e, by rw [hsp]; exact hp, by rw [hb]⟩

example : hostPart true false (joined (codes "exa\tmple:80/x")) = (codes "example", codes ":80/x") := by decide

example : hostPart true false (joined (codes "[1::2]:80")) = (codes "[1::2]", codes ":80") := by decide

example : ¬ (codes "example" = [] ∧ NeedsHost httpH (codes ":80/x")) ∧ httpH.scheme ≠ codes "file" ∧ httpH.cannotBeBase = false ∧
    parseHost same 100 (codes "example") (!decide (Special httpH.scheme)) none = .stop (.domain (codes "example"), none) := by
  refine ⟨by decide, by decide, rfl, ?_⟩
  have : decide (parseHost same 100 (codes "example") (!decide (Special httpH.scheme)) none = .stop (.domain (codes "example"), none)) = true := by
    decide +kernel
  exact of_decide_eq_true this

/-- C117. The host name of a `file` URL gets its first character twice. -/
theorem C117_twice : setHostname same 400 400 root (codes "ab") = .stop { root with host := some (.domain (codes "aab")) } := by
  have : decide (setHostname same 400 400 root (codes "ab") = .stop { root with host := some (.domain (codes "aab")) }) = true := by decide +kernel
  exact of_decide_eq_true this

theorem C117_statement_false : ¬ C117_statement := by
  intro h
  have hp : parseHost same 400 (codes "ab") (!decide (Special root.scheme)) none = .stop (.domain (codes "ab"), none) := by
    have : decide (parseHost same 400 (codes "ab") (!decide (Special root.scheme)) none = .stop (.domain (codes "ab"), none)) = true := by decide +kernel
    exact of_decide_eq_true this
  obtain ⟨k, hk⟩ := h same 400 root (codes "ab") _ _ root_valid rfl (by decide) (by decide) (by decide) hp (by decide) (by decide)
  have h1 := hk (400 + k) (by omega)
  have h2 := C117_twice
  unfold setHostname at h1 h2
  rw [if_neg (by decide)] at h1 h2
  unfold parseInto at h1 h2
  rw [run_mono 400 _ (by intro hm; rw [hm] at h2; cases h2) k, h2] at h1
  exact absurd h1 (by decide)

end Verif.Props.UrlSet
