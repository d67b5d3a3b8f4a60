import Verif.Proof.UrlReadAll
/- Property C113: a URL that is written and read again is the same URL. -/
namespace Verif.Props.UrlText
open Verif.Model.Coder Verif.Model.Legacy Verif.Model.Percent Verif.Model.Host Verif.Model.Url
open Verif.Spec Verif.Spec.Percent Verif.Spec.Host Verif.Spec.Url Verif.Spec.UrlText
open Verif.Proof.UrlValid Verif.Proof.UrlKept Verif.Proof.UrlReadAll
open Verif.Props.Url

/-- The record has a text, and the constructor of `basic_url` gets the same record from it, given time. -/
def RoundTrips (toAscii : List Nat → Ec → List Nat × Ec) (u : Url) : Prop :=
  ∃ t, serializeUrl u false = some t ∧ ∀ fuel n, 9 * t.length + 20 ≤ fuel → 48 * t.length + 101 ≤ n →
    create toAscii fuel n t none = .stop (some u)

/-- C113, full statement: every record that a program can come by is read again from its text. It is false of the code. -/
def C113_statement : Prop := ∀ (toAscii : List Nat → Ec → List Nat × Ec), Settled toAscii → ∀ u, Reachable toAscii u → RoundTrips toAscii u

/-- C113, partial: the records that lose nothing in their text, see `Readable`. Missing: the others, for which it is false. -/
theorem C113_partial {toAscii : List Nat → Ec → List Nat × Ec} (hA : Settled toAscii) {u : Url} (h : Reachable toAscii u)
    (hr : Readable u) : RoundTrips toAscii u := by
  obtain ⟨t, ht, _, hp⟩ := parse_text hA (reachable_valid hA.ne_nil h) (reachable_kept h) hr
  refine ⟨t, ht, fun fuel n hf hn => ?_⟩
  obtain ⟨s', h1, h2⟩ := hp fuel n hf hn
  unfold create
  rw [h1, ← h2]
  rfl

/-- C113, partial. `http`, `https`, `ws`, `wss` and `ftp`: whatever is done to them, such URLs are read again, but for the hosts
of C45. -/
theorem C113_special_partial {toAscii : List Nat → Ec → List Nat × Ec} (hA : Settled toAscii) {u : Url} (h : Reachable toAscii u)
    (hs : Special u.scheme) (hf : u.scheme ≠ codes "file") (h6 : ∀ a, u.host = some (.ipv6 a) → zeroRuns a ≤ 2) :
    RoundTrips toAscii u := by
  obtain ⟨h1, _, h3, _⟩ := (reachable_valid hA.ne_nil h).special hs
  refine C113_partial hA h ⟨h6, fun h => absurd h hf, fun h => absurd h hf, fun h => absurd h h1, fun h => ?_, fun h => ?_⟩
  all_goals (rw [h3] at h; cases h)

/-- C113, partial. Different records have different texts. -/
theorem C113_injective_partial {toAscii : List Nat → Ec → List Nat × Ec} (hA : Settled toAscii) {u v : Url} (hu : Reachable toAscii u)
    (hv : Reachable toAscii v) (hur : Readable u) (hvr : Readable v) (h : serializeUrl u false = serializeUrl v false) : u = v := by
  obtain ⟨t, ht, hp⟩ := C113_partial hA hu hur
  obtain ⟨t', ht', hp'⟩ := C113_partial hA hv hvr
  obtain rfl : t = t' := by rw [h, ht'] at ht; injection ht with ht; exact ht.symm
  have := (hp _ _ (Nat.le_refl _) (Nat.le_refl _)).symm.trans (hp' _ _ (Nat.le_refl _) (Nat.le_refl _))
  injection this with this
  injection this

/-- C113. The text is ASCII. -/
theorem C113_ascii_partial {toAscii : List Nat → Ec → List Nat × Ec} (hA : Settled toAscii) {u : Url} (h : Reachable toAscii u)
    (hr : Readable u) : ∃ t, serializeUrl u false = some t ∧ ∀ c ∈ t, c < 0x80 := by
  obtain ⟨t, ht, ha, _⟩ := parse_text hA (reachable_valid hA.ne_nil h) (reachable_kept h) hr
  exact ⟨t, ht, ha⟩

/-! ### Cases -/

/-- `domain_to_ascii` for domains in ASCII that need no change. -/
def plain (s : List Nat) (e : Ec) : List Nat × Ec :=
  if s = [] ∨ s.any (fun c => decide (0x80 ≤ c)) = true then (s, some .idnaTranslationFailed) else (s, e)

theorem plain_settled : Settled plain := by
  have key : ∀ q d, plain q none = (d, none) → q = d ∧ ¬ (q = [] ∨ q.any (fun c => decide (0x80 ≤ c)) = true) := by
    intro q d h
    unfold plain at h
    split at h
    · cases h
    · rename_i hn
      injection h with h
      exact ⟨h, hn⟩
  have ok : ∀ q : List Nat, q ≠ [] → (∀ c ∈ q, c < 0x80) → plain q none = (q, none) := by
    intro q h1 h2
    unfold plain
    rw [if_neg]
    rintro (h | h)
    · exact h1 h
    · obtain ⟨c, hc, h⟩ := List.any_eq_true.mp h
      have := h2 c hc
      simp at h
      omega
  refine ⟨?_, ?_, ?_, ?_⟩
  · intro q d h
    obtain ⟨rfl, hn⟩ := key q d h
    exact fun h => hn (Or.inl h)
  · intro q d h c hc
    obtain ⟨rfl, hn⟩ := key q d h
    by_contra hlt
    exact hn (Or.inr (List.any_eq_true.mpr ⟨c, hc, by simp; omega⟩))
  · intro q d h
    obtain ⟨rfl, hn⟩ := key q d h
    exact h
  · intro n _
    refine ok _ ?_ fun c hc => ?_
    · intro h
      simp [dotted, Infra.join] at h
    · have := Verif.Proof.UrlWhole.dottedChars n c hc
      omega

/-- A record that the constructor makes of a string. -/
theorem made {s : List Nat} {u : Url} (hs : ∀ c ∈ s, IsScalar c) (hl : s.length ≤ 40) (h : create plain 600 2500 s none = .stop (some u)) :
    Reachable plain u := by
  unfold create at h
  split at h
  · rename_i b s' hp
    cases b with
    | false => cases h
    | true =>
      injection h with h
      injection h with h
      subst h
      exact .parse hs (by simp) (by decide) (by omega) hp
  · cases h
  · cases h

/-- Of `https://us:pw@h:8080/a/%2e%2e/b?q#f`, the text is `https://us:pw@h:8080/b?q#f`. -/
example : ∃ u, Reachable plain u ∧ Special u.scheme ∧ u.scheme ≠ codes "file" ∧ (∀ a, u.host ≠ some (.ipv6 a)) ∧
    serializeUrl u false = some (codes "https://us:pw@h:8080/b?q#f") := by
  have h : (match create plain 600 2500 (codes "https://us:pw@h:8080/a/%2e%2e/b?q#f") none with
    | .stop (some u) => decide (Special u.scheme ∧ u.scheme ≠ codes "file" ∧ u.host = some (.domain (codes "h")) ∧
        serializeUrl u false = some (codes "https://us:pw@h:8080/b?q#f")) | _ => false) = true := by decide +kernel
  split at h
  · rename_i u hu
    obtain ⟨h1, h2, h3, h4⟩ := of_decide_eq_true h
    exact ⟨u, made (by decide) (by decide) hu, h1, h2, by simp [h3], h4⟩
  · cases h

/-- Of `a:/.//b` the text is the same; without the dot it would be read as a URL with the host `b`. -/
example : ∃ u, Reachable plain u ∧ Readable u ∧ u.path = [[], codes "b"] ∧ u.host = none ∧ serializeUrl u false = some (codes "a:/.//b") := by
  have h : (match create plain 600 2500 (codes "a:/.//b") none with
    | .stop (some u) => decide (u.path = [[], codes "b"] ∧ u.host = none ∧ u.cannotBeBase = false ∧ u.scheme = codes "a" ∧
        serializeUrl u false = some (codes "a:/.//b")) | _ => false) = true := by decide +kernel
  split at h
  · rename_i u hu
    obtain ⟨h1, h2, h3, h4, h5⟩ := of_decide_eq_true h
    refine ⟨u, made (by decide) (by decide) hu, ⟨by simp [h2], ?_, ?_, by simp [h1], by simp [h3], by simp [h3]⟩, h1, h2, h5⟩
    · rw [h4]; intro h; exact absurd h (by decide)
    · rw [h4]; intro h; exact absurd h (by decide)
  · cases h

/-- `mailto:a b#c` and `file:///C:/x`. -/
example : ∃ u v, Reachable plain u ∧ Readable u ∧ u.cannotBeBase = true ∧ u.path = [codes "a b"] ∧
    Reachable plain v ∧ Readable v ∧ v.scheme = codes "file" ∧ v.path = [codes "C:", codes "x"] := by
  have h : (match create plain 600 2500 (codes "mailto:a b#c") none with
    | .stop (some u) => decide (u = { scheme := codes "mailto", path := [codes "a b"], fragment := some (codes "c"), cannotBeBase := true })
    | _ => false) = true := by decide +kernel
  have k : (match create plain 600 2500 (codes "file:///C|/x") none with
    | .stop (some u) => decide (u = { scheme := codes "file", host := some .empty, path := [codes "C:", codes "x"] })
    | _ => false) = true := by decide +kernel
  split at h
  · rename_i u hu
    split at k
    · rename_i v hv
      have h1 := of_decide_eq_true h
      have h2 := of_decide_eq_true k
      refine ⟨u, v, made (by decide) (by decide) hu, ?_, by rw [h1], by rw [h1], made (by decide) (by decide) hv, ?_, by rw [h2], by rw [h2]⟩
      · rw [h1]
        exact ⟨by simp, fun h => absurd h (by decide +kernel), fun h => absurd h (by decide +kernel), by simp,
          fun _ p hp => by have : codes "a b" ≠ 0x2F :: p := by (intro h; have := congrArg List.head? h; revert this; simp; decide +kernel)
                           simp_all, by simp⟩
      · rw [h2]
        refine ⟨by simp, by simp, fun _ a hp => ?_, by simp, by simp, by simp⟩
        have : (codes "C:").getLast? = some 0x7C := by
          simp at hp
          rw [hp]; rfl
        exact absurd this (by decide +kernel)
    · cases k
  · cases h

/-! ### What is lost -/

/-- The record is not read again from its text. -/
def loses (u : Url) : Bool :=
  match serializeUrl u false with
  | none => false
  | some t => decide (t.length ≤ 40) &&
    match create plain 600 2500 t none with
    | .stop (some v) => decide (v ≠ u)
    | _ => true

theorem lossy {u : Url} (h : loses u = true) : ¬ RoundTrips plain u := by
  rintro ⟨t, h1, h2⟩
  unfold loses at h
  rw [h1] at h
  simp only [Bool.and_eq_true, decide_eq_true_eq] at h
  have := h2 600 2500 (by omega) (by omega)
  rw [this] at h
  simp at h

/-- The constructor, then a check. -/
def first (s : String) (f : Url → Bool) : Bool :=
  match create plain 600 2500 (codes s) none with
  | .stop (some u) => decide (∀ c ∈ codes s, IsScalar c) && decide ((codes s).length ≤ 40) && f u
  | _ => false

theorem first_of {s : String} {f : Url → Bool} (h : first s f = true) :
    ∃ u, create plain 600 2500 (codes s) none = .stop (some u) ∧ Reachable plain u ∧ f u = true := by
  unfold first at h
  split at h
  · rename_i u hu
    simp only [Bool.and_eq_true, decide_eq_true_eq] at h
    exact ⟨u, hu, made h.1.1 h.1.2 hu, h.2⟩
  · cases h

/-- C113. Strings whose records are not read again from their texts: after `a:/.` the record of `a:/` cannot be a base, an IPv6
address changes, a host becomes a drive letter. -/
theorem C113_lost : ∀ s ∈ ["a:/.", "http://[1:0:1:0:1:0:1:1]/", "file://%43|/x"],
    ∃ u, create plain 600 2500 (codes s) none = .stop (some u) ∧ Reachable plain u ∧ ¬ RoundTrips plain u := by
  have h : ∀ s ∈ ["a:/.", "http://[1:0:1:0:1:0:1:1]/", "file://%43|/x"], first s loses = true := by decide +kernel
  intro s hs
  obtain ⟨u, h1, h2, h3⟩ := first_of (h s hs)
  exact ⟨u, h1, h2, lossy h3⟩

theorem C113_statement_false : ¬ C113_statement := fun h => by
  obtain ⟨u, _, h1, h2⟩ := C113_lost "a:/." (by simp)
  exact h2 (h plain plain_settled u h1)

/-- Setters that lead to such records. -/
def setters : List (String × Setter × String) :=
  [("a:/x", .pathname, ""), ("a:b #c", .hash, ""), ("a:/", .search, "q"), ("http://1.2.3.4", .protocol, "file"),
    ("http://localhost", .protocol, "file"), ("http://h/C|/", .protocol, "file")]

/-- C113. Setters that lead to such records: no path is left, the fragment that kept a space is removed, a query comes behind
`a:/`, and `file` takes the place of `http` before an address, `localhost` and a drive letter. -/
theorem C113_lost_by_setters : ∀ w ∈ setters, ∃ u v, create plain 600 2500 (codes w.1) none = .stop (some u) ∧
      w.2.1.call plain 600 2500 u (codes w.2.2) = .stop v ∧ Reachable plain v ∧ ¬ RoundTrips plain v := by
  have h : ∀ w ∈ setters, first w.1 (fun u => decide (∀ c ∈ codes w.2.2, IsScalar c) && decide ((codes w.2.2).length ≤ 40) &&
      match w.2.1.call plain 600 2500 u (codes w.2.2) with | .stop v => loses v | _ => false) = true := by decide +kernel
  intro w hw
  obtain ⟨u, h1, h2, h3⟩ := first_of (h w hw)
  simp only [Bool.and_eq_true, decide_eq_true_eq] at h3
  obtain ⟨⟨h4, h5⟩, h6⟩ := h3
  split at h6
  · rename_i v hv
    exact ⟨u, v, h1, hv, .set h2 h4 (by omega) hv, lossy h6⟩
  · cases h6

/-- C113. The record of `http://1.2.3.4` with the protocol `file` is not only not read again: reading its text fails an assertion. -/
theorem C113_undefined : ∃ u v t, create plain 600 2500 (codes "http://1.2.3.4") none = .stop (some u) ∧
    setProtocol plain 600 2500 u (codes "file") = .stop v ∧ serializeUrl v false = some t ∧ create plain 600 2500 t none = .ub := by
  have h : first "http://1.2.3.4" (fun u => match setProtocol plain 600 2500 u (codes "file") with
    | .stop v => match serializeUrl v false with
      | some t => match create plain 600 2500 t none with | .ub => true | _ => false
      | none => false
    | _ => false) = true := by decide +kernel
  obtain ⟨u, h1, _, h3⟩ := first_of h
  split at h3
  · rename_i v hv
    split at h3
    · rename_i t ht
      split at h3
      · rename_i hc
        exact ⟨u, v, t, h1, hv, ht, hc⟩
      · cases h3
    · cases h3
  · cases h3

end Verif.Props.UrlText
