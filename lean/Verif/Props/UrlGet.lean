import Verif.Proof.UrlGets
import Verif.Props.UrlSet
import Verif.Props.UrlText
/- Properties C118-C120, and more on C48 and C117: setting host and port, and what the getters give. -/
namespace Verif.Props.UrlGet
open Verif.Model.Coder Verif.Model.Legacy Verif.Model.Percent Verif.Model.Host Verif.Model.Url Verif.Model.UrlGet
open Verif.Spec Verif.Spec.Infra Verif.Spec.Percent Verif.Spec.Host Verif.Spec.Url Verif.Spec.UrlSet Verif.Spec.UrlText Verif.Spec.UrlGet
open Verif.Proof.UrlInner Verif.Proof.UrlEnds Verif.Proof.UrlValid Verif.Proof.UrlApi Verif.Proof.UrlAgain Verif.Proof.UrlSetters
open Verif.Proof.UrlHostSet Verif.Proof.UrlGets Verif.Proof.UrlWhole Verif.Proof.UrlRead Verif.Proof.UrlReadAll Verif.Proof.UrlKept
open Verif.Props.Percent Verif.Props.Url Verif.Props.UrlSet Verif.Props.UrlText

/-! ### C48: the port setter for every string -/

/-- The ports the code takes: at most five digits, below 65535. -/
def Taken (ds : List Nat) (v : Nat) : Prop := ds.length ≤ 5 ∧ v < 65535

/-- C48. What the port setter does for every string: no string, no port; else the digits at the beginning count, if they are at
most five and make a number below 65535. -/
theorem C48_strings (toAscii : List Nat → Ec → List Nat × Ec) (u : Url) (s : List Nat) (fuel : Nat) (hu : ValidUrl u) (hm : MayHavePort u) :
    (s = [] → ∀ n, setPort toAscii fuel n u s = .stop { u with port := none }) ∧
    (s ≠ [] → ∃ u' k, PortFrom Taken u (joined s) u' ∧ ∀ n, k ≤ n → setPort toAscii fuel n u s = .stop u') := by
  unfold setPort
  rw [(may_iff hu).mpr hm]
  dsimp only
  refine ⟨fun h n => by rw [if_pos h], fun h => ?_⟩
  simp only [if_neg h]
  have key := port_reads (x := intoCtx toAscii fuel s .port) (by simp [intoCtx]) u false false false (cleaned s) [] List.suffix_rfl
  obtain ⟨k, hk⟩ := into_stops key
  refine ⟨_, k, ?_, hk⟩
  rw [cleaned_eq]
  exact portUrl_from u (joined s)

/-- `80\t80x` is the port 8080, `x` none. -/
example : digits (joined (codes "80\t80x")) = codes "8080" ∧ Numeral 10 (codes "8080") 8080 ∧ Taken (codes "8080") 8080 ∧
    digits (joined (codes "x8")) = [] :=
  ⟨by decide, (Verif.Proof.Host4.numeral_iff _ _ _).mpr (by decide), by unfold Taken; decide, by decide⟩

/-! ### C117: the host name of a `file` URL -/

/-- C117. What the host name setter does to a `file` URL: nothing if the string begins with nothing, a colon, or what ends a host;
else the first code point counts twice. -/
theorem C117_file (toAscii : List Nat → Ec → List Nat × Ec) (u : Url) (s : List Nat) (fuel : Nat) (hf : u.scheme = codes "file")
    (hb : u.cannotBeBase = false) :
    ((joined s = [] ∨ (joined s).head? = some 0x3A ∨ ∃ c, (joined s).head? = some c ∧ c ∈ codes "/\\?#") →
      ∃ k, ∀ n, k ≤ n → setHostname toAscii fuel n u s = .stop u) ∧
    (∀ c t, joined s = c :: t → c ≠ 0x3A → c ∉ codes "/\\?#" →
      ∀ h e, parseHost toAscii fuel (c :: fileHostText (joined s)) false none = .stop (h, e) → (h = .null ∨ ∃ d, h = .domain d) →
      ∃ k, ∀ n, k ≤ n → setHostname toAscii fuel n u s =
        .stop (if h = .null then u else { u with host := some (if h = .domain (codes "localhost") then .empty else h) })) := by
  have hsp : isSpecial u = true := (special_iff _).mpr (by rw [hf]; decide)
  have key := file_reads (x := intoCtx toAscii fuel s .hostname) (by simp [intoCtx]) (q := .hostname) (Or.inr rfl) u hf (cleaned s) (cleaned_ne _)
    List.suffix_rfl
  unfold setHostname
  simp only [hb, Bool.false_eq_true, if_false]
  refine ⟨fun h => into_stops (key.1 (by rw [cleaned_eq]; exact h)), fun c t hs h1 h2 h e hp hh => into_stops (key.2 c t (by rw [cleaned_eq]; exact hs) h1 h2 _ ?_)⟩
  refine ⟨h, e, ?_, hh, by rw [hb]⟩
  rw [cleaned_eq, hsp]
  exact hp

/-- Of `ab/c` the host `aab` is parsed. -/
example : joined (codes "ab/c") = 0x61 :: codes "b/c" ∧ 0x61 :: fileHostText (joined (codes "ab/c")) = codes "aab" ∧
    parseHost same 400 (codes "aab") false none = .stop (.domain (codes "aab"), none) := by
  refine ⟨by decide, by decide, ?_⟩
  have : decide (parseHost same 400 (codes "aab") false none = .stop (.domain (codes "aab"), none)) = true := by decide +kernel
  exact of_decide_eq_true this

/-! ### C118: the host setter -/

/-- What a host and what stands behind it make of a URL: the host, and behind a colon the port. -/
def HostAndPort (counts : List Nat → Nat → Prop) (u : Url) (h : Host) (r : List Nat) (u' : Url) : Prop :=
  if h = .null then u' = u
  else (r.head? = some 0x3A → PortFrom counts { u with host := some h } r.tail u') ∧
    (r.head? ≠ some 0x3A → u' = { u with host := some h })

/-- C118, full statement: the host setter takes over the host in front of a colon outside brackets, a slash, a question mark or a
hash, and behind a colon a port to 65535. It is false of `file` URLs and of the port 65535. -/
def C118_statement : Prop := ∀ (toAscii : List Nat → Ec → List Nat × Ec) (u : Url) (s w r : List Nat) (fuel : Nat), ValidUrl u →
  u.cannotBeBase = false → hostPart (decide (Special u.scheme)) false (joined s) = (w, r) →
    (w = [] ∧ NeedsHost u r → ∃ k, ∀ n, k ≤ n → setHost toAscii fuel n u s = .stop u) ∧
    (¬ (w = [] ∧ NeedsHost u r) → ∀ h e, parseHost toAscii fuel w (!decide (Special u.scheme)) none = .stop (h, e) →
      ∃ u' k, HostAndPort (fun _ v => v ≤ 65535) u h r u' ∧ ∀ n, k ≤ n → setHost toAscii fuel n u s = .stop u')

/-- C118, partial: every string and every URL but `file` URLs, with the ports that the code takes (C48). Missing: `file` URLs, 65535
and ports of more than five digits, for which it is false; and texts for which the host parser is undefined (C43, C44, C74). -/
theorem C118_partial (toAscii : List Nat → Ec → List Nat × Ec) (u : Url) (s w r : List Nat) (fuel : Nat) (hfile : u.scheme ≠ codes "file")
    (hb : u.cannotBeBase = false) (hw : hostPart (decide (Special u.scheme)) false (joined s) = (w, r)) :
    (w = [] ∧ NeedsHost u r → ∃ k, ∀ n, k ≤ n → setHost toAscii fuel n u s = .stop u) ∧
    (¬ (w = [] ∧ NeedsHost u r) → ∀ h e, parseHost toAscii fuel w (!decide (Special u.scheme)) none = .stop (h, e) →
      ∃ u' k, HostAndPort Taken u h r u' ∧ ∀ n, k ≤ n → setHost toAscii fuel n u s = .stop u') := by
  have hsp : isSpecial u = decide (Special u.scheme) := by
    rw [Bool.eq_iff_iff, decide_eq_true_eq]
    exact special_iff _
  have key := host_reads (x := intoCtx toAscii fuel s .host) rfl u hfile (cleaned s) [] false (cleaned_ne _) List.suffix_rfl
  rw [List.nil_append, cleaned_eq, hw] at key
  dsimp only at key
  unfold setHost
  simp only [hb, Bool.false_eq_true, if_false]
  constructor
  · intro hn
    refine into_stops ?_
    rw [cleaned_eq]
    exact key u (by rw [if_pos hn])
  · intro hn h e hp
    have st := key (if h = .null then u else portTail { u with host := some h } r) (by
      rw [if_neg hn]
      exact ⟨h, e, by rw [hsp]; exact hp, rfl⟩)
    rw [← cleaned_eq] at st
    obtain ⟨k, hk⟩ := into_stops st
    refine ⟨_, k, ?_, hk⟩
    unfold HostAndPort
    by_cases hnull : h = .null
    · rw [if_pos hnull, if_pos hnull]
    · rw [if_neg hnull, if_neg hnull]
      unfold portTail
      refine ⟨fun hc => ?_, fun hc => ?_⟩
      · rw [if_pos hc]
        exact portUrl_from _ _
      · rw [if_neg hc]

example : hostPart true false (joined (codes "[1::2]:8080/x")) = (codes "[1::2]", codes ":8080/x") ∧ httpH.scheme ≠ codes "file" ∧
    ¬ (codes "[1::2]" = [] ∧ NeedsHost httpH (codes ":8080/x")) ∧ digits (codes "8080/x") = codes "8080" := by decide

/-- Setting `example:8080/x` gives `http://example:8080/`. -/
example : HostAndPort Taken httpH (.domain (codes "example")) (codes ":8080/x") { httpH with host := some (.domain (codes "example")), port := some 8080 } := by
  unfold HostAndPort
  rw [if_neg (by simp)]
  have hd : digits (codes ":8080/x").tail = codes "8080" := by decide
  have hn : Numeral 10 (codes "8080") 8080 := (Verif.Proof.Host4.numeral_iff _ _ _).mpr (by decide)
  refine ⟨fun _ => ⟨fun h => absurd h (by decide), fun v hv => ?_⟩, fun h => absurd (by decide) h⟩
  rw [hd] at hv ⊢
  obtain rfl : v = 8080 := by
    have h1 := ((Verif.Proof.Host4.numeral_iff _ _ _).mp hv).2.2
    have h2 := ((Verif.Proof.Host4.numeral_iff _ _ _).mp hn).2.2
    exact h1.trans h2.symm
  exact ⟨fun _ => by decide, fun h => absurd (by unfold Taken; decide) h⟩

/-- C118. What the host setter does to a `file` URL: the same as the host name setter (C117). -/
theorem C118_file (toAscii : List Nat → Ec → List Nat × Ec) (u : Url) (s : List Nat) (fuel : Nat) (hf : u.scheme = codes "file")
    (hb : u.cannotBeBase = false) :
    ((joined s = [] ∨ (joined s).head? = some 0x3A ∨ ∃ c, (joined s).head? = some c ∧ c ∈ codes "/\\?#") →
      ∃ k, ∀ n, k ≤ n → setHost toAscii fuel n u s = .stop u) ∧
    (∀ c t, joined s = c :: t → c ≠ 0x3A → c ∉ codes "/\\?#" →
      ∀ h e, parseHost toAscii fuel (c :: fileHostText (joined s)) false none = .stop (h, e) → (h = .null ∨ ∃ d, h = .domain d) →
      ∃ k, ∀ n, k ≤ n → setHost toAscii fuel n u s =
        .stop (if h = .null then u else { u with host := some (if h = .domain (codes "localhost") then .empty else h) })) := by
  have hsp : isSpecial u = true := (special_iff _).mpr (by rw [hf]; decide)
  have key := file_reads (x := intoCtx toAscii fuel s .host) (by simp [intoCtx]) (q := .host) (Or.inl rfl) u hf (cleaned s) (cleaned_ne _)
    List.suffix_rfl
  unfold setHost
  simp only [hb, Bool.false_eq_true, if_false]
  refine ⟨fun h => into_stops (key.1 (by rw [cleaned_eq]; exact h)), fun c t hs h1 h2 h e hp hh => into_stops (key.2 c t (by rw [cleaned_eq]; exact hs) h1 h2 _ ?_)⟩
  refine ⟨h, e, ?_, hh, by rw [hb]⟩
  rw [cleaned_eq, hsp]
  exact hp

/-- C118. `file:///` with the host `ab` gets the host `aab`. -/
theorem C118_twice : setHost same 400 400 root (codes "ab") = .stop { root with host := some (.domain (codes "aab")) } := by
  have : decide (setHost same 400 400 root (codes "ab") = .stop { root with host := some (.domain (codes "aab")) }) = true := by decide +kernel
  exact of_decide_eq_true this

/-- C118. `http://h/` does not get the port 65535. -/
theorem C118_port : setHost same 400 400 httpH (codes "h:65535") = .stop httpH := by
  have : decide (setHost same 400 400 httpH (codes "h:65535") = .stop httpH) = true := by decide +kernel
  exact of_decide_eq_true this

theorem C118_statement_false : ¬ C118_statement := by
  intro h
  have hp : parseHost same 400 (codes "ab") (!decide (Special root.scheme)) none = .stop (.domain (codes "ab"), none) := by
    have : decide (parseHost same 400 (codes "ab") (!decide (Special root.scheme)) none = .stop (.domain (codes "ab"), none)) = true := by decide +kernel
    exact of_decide_eq_true this
  obtain ⟨u', k, hu', hk⟩ := (h same root (codes "ab") (codes "ab") [] 400 root_valid rfl (by decide)).2 (by decide) _ _ hp
  have h1 := hk (400 + k) (by omega)
  have h2 := C118_twice
  unfold setHost at h1 h2
  rw [if_neg (by decide)] at h1 h2
  unfold parseInto at h1 h2
  rw [run_mono 400 _ (by intro hm; rw [hm] at h2; cases h2) k, h2] at h1
  unfold HostAndPort at hu'
  rw [if_neg (by simp)] at hu'
  have h3 := hu'.2 (by simp)
  subst h3
  exact absurd h1 (by decide)

/-! ### C119: the getters -/

/-- The text of a query or fragment with its mark, also if it is empty. -/
def marked (m : Nat) (got : List Nat) (part : Option (List Nat)) : List Nat := if part = some [] then [m] else got

/-- C119. The getters are defined for every URL a program can come by, and `href` is made of what they give: protocol, two slashes,
credentials and host if there is a host, `/.` if the path would be taken for a host, path, query and fragment, where a mark without
text stays. -/
theorem C119 {toAscii : List Nat → Ec → List Nat × Ec} (hA : Settled toAscii) {u : Url} (h : Reachable toAscii u) :
    ∃ t hn pa, getHref u = some t ∧ getHostname u = some hn ∧ getPathname u = some pa ∧
      getHost u = some (hn ++ (if getPort u = [] then [] else codes ":" ++ getPort u)) ∧
      t = getProtocol u ++
        (if u.host = none then (if u.cannotBeBase = false ∧ pa.take 2 = codes "//" then codes "/." else [])
          else codes "//" ++ (if getUsername u = [] ∧ getPassword u = [] then [] else
              getUsername u ++ (if getPassword u = [] then [] else codes ":" ++ getPassword u) ++ codes "@") ++
            hn ++ (if getPort u = [] then [] else codes ":" ++ getPort u)) ++
        pa ++ marked 0x3F (getSearch u) u.query ++ marked 0x23 (getHash u) u.fragment := by
  have hv := reachable_valid hA.ne_nil h
  have e1 : codes ":" = [0x3A] := by decide
  have e2 : codes "//" = [0x2F, 0x2F] := by decide
  have e3 : codes "@" = [0x40] := by decide
  have e4 : codes "/." = [0x2F, 0x2E] := by decide
  have hport : portText u.port = if getPort u = [] then [] else codes ":" ++ getPort u := by
    unfold getPort portText
    cases u.port with
    | none => rfl
    | some p =>
      have : serializeInteger p = decimal p := Verif.Proof.Digits.toChars_decimal p
      simp [this, e1, Verif.Proof.Host4.decimal_ne_nil p]
  have htail : tailText u = marked 0x3F (getSearch u) u.query ++ marked 0x23 (getHash u) u.fragment := by
    unfold tailText queryText fragmentText marked getSearch getHash
    cases u.query with
    | none => cases u.fragment with
      | none => rfl
      | some f => by_cases hf : f = [] <;> simp [hf]
    | some q => cases u.fragment with
      | none => by_cases hq : q = [] <;> simp [hq]
      | some f => by_cases hq : q = [] <;> by_cases hf : f = [] <;> simp [hq, hf]
  have huser : userText u.username u.password = if getUsername u = [] ∧ getPassword u = [] then [] else
      getUsername u ++ (if getPassword u = [] then [] else codes ":" ++ getPassword u) ++ codes "@" := by
    unfold userText credText getUsername getPassword
    rw [e1, e3]
    cases h1 : u.username <;> cases h2 : u.password <;> simp
  cases hh : u.host with
  | none =>
    have hp0 : u.port = none := by
      by_contra hp
      obtain ⟨k, hk, _⟩ := hv.authority (Or.inr (Or.inr hp))
      rw [hh] at hk; cases hk
    have hg : getPort u = [] := by unfold getPort; rw [hp0]
    cases hb : u.cannotBeBase with
    | true =>
      obtain ⟨-, p, hp, -⟩ := hv.cannot hb
      refine ⟨_, [], p, text_cannot hh hb hp, by simp [getHostname, hh], by simp [getPathname, hb, hp], by simp [getHost, hh, hg], ?_⟩
      rw [htail]
      simp [getProtocol]
    | false =>
      refine ⟨_, [], _, text_nohost hh hb, by simp [getHostname, hh], by simp [getPathname, hb]; rfl, by simp [getHost, hh, hg], ?_⟩
      have hcond : (1 < u.path.length ∧ u.path.headD [] = []) ↔ (segsText u.path).take 2 = codes "//" := by
        rw [e2]
        cases hps : u.path with
        | nil => simp [segsText]
        | cons p ps =>
          cases p with
          | nil =>
            cases ps with
            | nil => simp [segsText]
            | cons q qs => simp [segsText]
          | cons c p =>
            have := ((hv.path hb (c :: p) (by rw [hps]; simp)).2 c (by simp)).2.1
            simp [segsText, this]
      rw [htail]
      show _ = _ ++ _ ++ segsText u.path ++ _ ++ _
      simp only [hcond, getProtocol]
      rw [e4]
      simp
      rfl
  | some k =>
    have hb : u.cannotBeBase = false := by
      cases hb : u.cannotBeBase with
      | false => rfl
      | true => have := (hv.cannot hb).1; rw [hh] at this; cases this
    have hw : ∃ w, serializeHost k = some w := by
      have := hv.host k hh
      cases k with
      | null => exact absurd this (by simp [GoodHost])
      | _ => exact ⟨_, rfl⟩
    obtain ⟨w, hw⟩ := hw
    refine ⟨_, w, _, text_host hh hw hb, by simp [getHostname, hh, hw], by simp [getPathname, hb]; rfl, ?_, ?_⟩
    · rw [← hport]
      unfold getHost portText
      simp only [hh, hw]
      cases u.port with
      | none => simp
      | some p =>
        have : serializeInteger p = decimal p := Verif.Proof.Digits.toChars_decimal p
        simp [this]
    · rw [htail, huser, hport]
      show _ = _ ++ _ ++ segsText u.path ++ _ ++ _
      rw [e2]
      simp [getProtocol]

/-- `https://us:pw@h:8080/b?q#f`. -/
example : ∃ u, Reachable plain u ∧ getProtocol u = codes "https:" ∧ getUsername u = codes "us" ∧ getPassword u = codes "pw" ∧
    getHost u = some (codes "h:8080") ∧ getHostname u = some (codes "h") ∧ getPort u = codes "8080" ∧ getPathname u = some (codes "/b") ∧
    getSearch u = codes "?q" ∧ getHash u = codes "#f" ∧ getHref u = some (codes "https://us:pw@h:8080/b?q#f") := by
  have h : first "https://us:pw@h:8080/a/../b?q#f" (fun u => decide (getProtocol u = codes "https:" ∧ getUsername u = codes "us" ∧ getPassword u = codes "pw" ∧
    getHost u = some (codes "h:8080") ∧ getHostname u = some (codes "h") ∧ getPort u = codes "8080" ∧ getPathname u = some (codes "/b") ∧
    getSearch u = codes "?q" ∧ getHash u = codes "#f" ∧ getHref u = some (codes "https://us:pw@h:8080/b?q#f"))) = true := by decide +kernel
  obtain ⟨u, _, h2, h3⟩ := first_of h
  exact ⟨u, h2, of_decide_eq_true h3⟩

/-- `a:/.//b` and `http://h/?#`. -/
example : ∃ u v, Reachable plain u ∧ Reachable plain v ∧ getHref u = some (codes "a:/.//b") ∧ getPathname u = some (codes "//b") ∧
    getHref v = some (codes "http://h/?#") ∧ getSearch v = [] ∧ getHash v = [] := by
  have h : first "a:/.//b" (fun u => decide (getHref u = some (codes "a:/.//b") ∧ getPathname u = some (codes "//b"))) = true := by decide +kernel
  have k : first "http://h/?#" (fun v => decide (getHref v = some (codes "http://h/?#") ∧ getSearch v = [] ∧ getHash v = [])) = true := by
    decide +kernel
  obtain ⟨u, _, h2, h3⟩ := first_of h
  obtain ⟨v, _, k2, k3⟩ := first_of k
  obtain ⟨h3, h4⟩ := of_decide_eq_true h3
  exact ⟨u, v, h2, k2, h3, h4, of_decide_eq_true k3⟩

/-! ### C120: setting what was got -/

/-- The getter that belongs to a setter. -/
def got (u : Url) : Setter → Option (List Nat)
  | .protocol => some (getProtocol u)
  | .username => some (getUsername u)
  | .password => some (getPassword u)
  | .host => getHost u
  | .hostname => getHostname u
  | .port => some (getPort u)
  | .pathname => getPathname u
  | .search => some (getSearch u)
  | .hash => some (getHash u)

/-- C120, full statement: setting a part of a URL to what its getter gives changes nothing. It is false of the code. -/
def C120_statement : Prop := ∀ (toAscii : List Nat → Ec → List Nat × Ec), Settled toAscii → ∀ u, Reachable toAscii u → ∀ (op : Setter) t,
  got u op = some t → ∀ fuel, 9 * t.length + 20 ≤ fuel → ∃ k, ∀ n, k ≤ n → op.call toAscii fuel n u t = .stop u

/-- The parts that are not changed by setting them to what they are. -/
def Fixed (u : Url) : Setter → Prop
  | .protocol => True
  /- C77: these setters are undefined for other hosts. -/
  | .username | .password | .port => ∀ h, u.host = some h → ∃ d, h = .domain d ∨ h = .opaque d
  /- No host is not an empty host; C117: the hosts of `file` URLs; C45: addresses with many zeros. -/
  | .host | .hostname => (u.host = none → u.cannotBeBase = true) ∧ (u.scheme = codes "file" → u.host = some .empty) ∧
      ∀ a, u.host = some (.ipv6 a) → zeroRuns a ≤ 2
  /- C113: a drive letter in front of a bar. -/
  | .pathname => u.scheme = codes "file" → ∀ a, u.path.head? = some [a, 0x7C] → ¬ Letter a
  /- No query is not an empty query. -/
  | .search => u.query ≠ some []
  | .hash => u.fragment ≠ some []

theorem digits_all {s : List Nat} (h : ∀ c ∈ s, 0x30 ≤ c ∧ c ≤ 0x39) : digits s = s := by
  unfold digits
  induction s with
  | nil => rfl
  | cons c s ih =>
    rw [List.takeWhile_cons, if_pos (by simpa using h c (by simp)), ih fun d hd => h d (by simp [hd])]

/-- C120, partial: the parts named in `Fixed`. Missing: the others, for which it is false. -/
theorem C120_partial {toAscii : List Nat → Ec → List Nat × Ec} (hA : Settled toAscii) {u : Url} (hr : Reachable toAscii u) (op : Setter)
    (hfix : Fixed u op) {t : List Nat} (ht : got u op = some t) {fuel : Nat} (hf : 9 * t.length + 20 ≤ fuel) :
    ∃ k, ∀ n, k ≤ n → op.call toAscii fuel n u t = .stop u := by
  have hv := reachable_valid hA.ne_nil hr
  have hk := reachable_kept hr
  have cred : (∀ h, u.host = some h → ∃ d, h = .domain d ∨ h = .opaque d) → cannotHaveCredentials u = some true ∨ cannotHaveCredentials u = some false := by
    intro h
    unfold cannotHaveCredentials
    cases hh : u.host with
    | none => exact Or.inl rfl
    | some k =>
      obtain ⟨d, rfl | rfl⟩ := h k hh <;> (simp only [hostEq]; generalize (_ || _ || _ : Bool) = b; cases b <;> simp)
  have stays : ∀ p : PSet, ∀ s : List Nat, (∀ c ∈ s, ¬ InSet p c) → ∀ c ∈ s, Stays c := fun p s h c hc => noset (h c hc)
  have hsp : ∀ p, u.port = some p → serializeInteger p = decimal p := fun p _ => Verif.Proof.Digits.toChars_decimal p
  have pnum : ∀ p, u.port = some p → digits (decimal p) = decimal p ∧ Numeral 10 (decimal p) p ∧ Taken (decimal p) p ∧ joined (decimal p) = decimal p ∧ withPort u p = u := by
    intro p hp
    have hlt := hk.port p hp
    refine ⟨?_, numeral_decimal p, ⟨decimal_length (by omega), hlt⟩, joined_all fun c hc => ?_, ?_⟩
    · exact digits_all fun c hc => Verif.Proof.Host4.decimal_digit p c hc
    · have := Verif.Proof.Host4.decimal_digit p c hc
      unfold Stays
      omega
    · unfold withPort
      rw [if_neg (hv.port p hp).2, ← hp]
  have known : ∀ {h w}, u.host = some h → u.scheme ≠ codes "file" → serializeHost h = some w → (∀ a, u.host = some (.ipv6 a) → zeroRuns a ≤ 2) →
      h ≠ .null ∧ (9 * w.length + 9 ≤ fuel → ∃ e, parseHost toAscii fuel w (!decide (Special u.scheme)) none = .stop (h, e)) := by
    intro h w hh hfile hw h6
    have hne : h ≠ .empty := by
      rintro rfl
      by_cases hs : Special u.scheme
      · exact (hv.special hs).2.2.2 hfile hh
      · exact hs (hv.host _ hh)
    obtain ⟨w', hw', hg⟩ := host_good hA hv hk h6 hh hne
    obtain rfl : w = w' := by rw [hw] at hw'; injection hw'
    have hsp : isSpecial { scheme := u.scheme } = decide (Special u.scheme) := by
      rw [Bool.eq_iff_iff, decide_eq_true_eq]
      exact special_iff _
    refine ⟨(by rintro rfl; cases hw), fun hl => ?_⟩
    have := (hg ⟨[], none, none, toAscii, fuel⟩ rfl hl).parsed
    rw [hsp] at this
    exact this
  cases op with
  | protocol =>
    obtain rfl : getProtocol u = t := by simpa [got] using ht
    have hst : ∀ c ∈ getProtocol u, Stays c := by
      intro c hc
      rcases List.mem_append.mp hc with hc | hc
      · exact (scheme_chars hv c hc).1
      · obtain rfl := List.mem_singleton.mp hc
        decide
    obtain ⟨a, r, hs, h1, h2⟩ := hv.scheme
    have hlow : ∀ c, Lower c → Verif.Spec.Infra.lower c = c ∧ Lower (Verif.Spec.Infra.lower c) := by
      intro c hc
      have : Verif.Spec.Infra.lower c = c := by unfold Lower at hc; unfold Verif.Spec.Infra.lower; rw [if_neg (by omega)]
      exact ⟨this, by rw [this]; exact hc⟩
    have hother : ∀ c, ((0x30 ≤ c ∧ c ≤ 0x39) ∨ c ∈ codes "+-.") → Verif.Spec.Infra.lower c = c ∧ c ≠ 0x3A := by
      intro c hc
      have e : codes "+-." = [0x2B, 0x2D, 0x2E] := by decide
      rw [e] at hc
      simp only [List.mem_cons, List.not_mem_nil, or_false] at hc
      exact ⟨by unfold Verif.Spec.Infra.lower; rw [if_neg (by omega)], by omega⟩
    have hall : ∀ c ∈ u.scheme, Verif.Spec.Infra.lower c = c ∧ c ≠ 0x3A := by
      intro c hc
      rw [hs] at hc
      rcases List.mem_cons.mp hc with rfl | hc
      · exact ⟨(hlow c h1).1, by unfold Lower at h1; omega⟩
      · rcases h2 c hc with h | h
        · exact ⟨(hlow c h).1, by unfold Lower at h; omega⟩
        · exact hother c h
    have hw : u.scheme = (joined (getProtocol u)).takeWhile fun c => decide (c ≠ 0x3A) := by
      rw [joined_all hst, getProtocol, List.takeWhile_append_of_pos fun c hc => by simpa using (hall c hc).2]
      simp
    have hmap : u.scheme.map Verif.Spec.Infra.lower = u.scheme := by
      conv_rhs => rw [← List.map_id u.scheme]
      exact List.map_congr_left fun c hc => (hall c hc).1
    obtain ⟨k1, k2⟩ := C116 toAscii u (getProtocol u) u.scheme fuel hv hw
    by_cases hT : SchemeText u.scheme ∧ Takes u (u.scheme.map Verif.Spec.Infra.lower)
    · obtain ⟨k, hk'⟩ := k1 hT
      refine ⟨k, fun n hn => ?_⟩
      show setProtocol toAscii fuel n u (getProtocol u) = _
      rw [hk' n hn, hmap]
      unfold renamed
      congr 1
      cases hp : u.port with
      | none => simp only [ite_self]; rw [← hp]
      | some p => rw [if_neg (hv.port p hp).2, ← hp]
    · exact k2 hT
  | username =>
    obtain rfl : u.username = t := by simpa [got, getUsername] using ht
    refine ⟨0, fun n _ => ?_⟩
    show setUsername fuel u u.username = _
    rcases cred hfix with h | h
    · unfold setUsername; rw [h]
    · have := ((C115 toAscii u u.username fuel (scalar_stays (stays _ _ hv.username)) hf).1 hv ((may_iff hv).mp h)).1
      rw [this, encoded_all hv.username]
  | password =>
    obtain rfl : u.password = t := by simpa [got, getPassword] using ht
    refine ⟨0, fun n _ => ?_⟩
    show setPassword fuel u u.password = _
    rcases cred hfix with h | h
    · unfold setPassword; rw [h]
    · have := ((C115 toAscii u u.password fuel (scalar_stays (stays _ _ hv.password)) hf).1 hv ((may_iff hv).mp h)).2
      rw [this, encoded_all hv.password]
  | host =>
    cases hb : u.cannotBeBase with
    | true => exact ⟨0, fun n _ => by show setHost toAscii fuel n u t = _; unfold setHost; rw [hb]; rfl⟩
    | false =>
      obtain ⟨h, hh⟩ : ∃ h, u.host = some h := by
        cases hh : u.host with
        | none => rw [hfix.1 hh] at hb; cases hb
        | some h => exact ⟨h, rfl⟩
      obtain ⟨w, hw, hst, -⟩ := host_text hA hv hk hfix.2.2 hh
      have ht' : t = w ++ portText u.port := by
        have : getHost u = some t := ht
        unfold getHost at this
        simp only [hh, hw] at this
        cases hp : u.port with
        | none => rw [hp] at this; simpa [portText] using this.symm
        | some p => rw [hp] at this; simp only [Option.some.injEq, hsp p hp] at this; simpa [portText] using this.symm
      by_cases hfile : u.scheme = codes "file"
      · obtain rfl : h = .empty := by have := hfix.2.1 hfile; rw [hh] at this; injection this
        obtain rfl : [] = w := by simpa [serializeHost] using hw
        obtain rfl : t = [] := by rw [ht', (hv.file hfile).2.2]; rfl
        exact (C118_file toAscii u [] fuel hfile hb).1 (Or.inl rfl)
      · obtain ⟨hnull, hgood⟩ := known hh hfile hw hfix.2.2
        have hj : joined t = w ++ portText u.port := by
          rw [ht']
          refine joined_all fun c hc => ?_
          rcases List.mem_append.mp hc with hc | hc
          · exact hst c hc
          · have := portText_chars u.port c hc
            unfold Stays
            omega
        have hbehind : Behind (portText u.port) := by
          cases u.port with
          | none => exact Or.inl rfl
          | some p => exact Or.inr ⟨_, rfl⟩
        obtain ⟨k1, k2⟩ := C118_partial toAscii u t w (portText u.port) fuel hfile hb (by rw [hj]; exact host_split hv hh hw _ hbehind)
        by_cases hn : w = [] ∧ NeedsHost u (portText u.port)
        · exact k1 hn
        · obtain ⟨e, he⟩ := hgood (by rw [ht', List.length_append] at hf; omega)
          obtain ⟨u', k, hu', hk'⟩ := k2 hn h e he
          have same : { u with host := some h } = u := by rw [← hh]
          unfold HostAndPort at hu'
          rw [if_neg hnull, same] at hu'
          have : u' = u := by
            cases hp : u.port with
            | none => exact hu'.2 (by rw [hp]; simp [portText])
            | some p =>
              obtain ⟨d1, d2, d3, d4, d5⟩ := pnum p hp
              have h1 := hu'.1 (by rw [hp]; rfl)
              rw [hp] at h1
              have h2 := h1.2 p (by show Numeral 10 (digits (decimal p)) p; rw [d1]; exact d2)
              rw [h2.1 (by show Taken (digits (decimal p)) p; rw [d1]; exact d3), d5]
          rw [this] at hk'
          exact ⟨k, hk'⟩
  | hostname =>
    cases hb : u.cannotBeBase with
    | true => exact ⟨0, fun n _ => by show setHostname toAscii fuel n u t = _; unfold setHostname; rw [hb]; rfl⟩
    | false =>
      obtain ⟨h, hh⟩ : ∃ h, u.host = some h := by
        cases hh : u.host with
        | none => rw [hfix.1 hh] at hb; cases hb
        | some h => exact ⟨h, rfl⟩
      obtain ⟨w, hw, hst, -⟩ := host_text hA hv hk hfix.2.2 hh
      obtain rfl : w = t := by
        have : getHostname u = some t := ht
        unfold getHostname at this
        rw [hh] at this
        dsimp only at this
        rw [hw] at this
        injection this
      by_cases hfile : u.scheme = codes "file"
      · obtain rfl : h = .empty := by have := hfix.2.1 hfile; rw [hh] at this; injection this
        obtain rfl : [] = w := by simpa [serializeHost] using hw
        exact (C117_file toAscii u [] fuel hfile hb).1 (Or.inl rfl)
      · obtain ⟨hnull, hgood⟩ := known hh hfile hw hfix.2.2
        have hsplit := host_split hv hh hw (decide (Special u.scheme)) (r := []) (Or.inl rfl)
        rw [List.append_nil] at hsplit
        obtain ⟨k1, k2⟩ := C117_partial toAscii u w w [] fuel hfile hb (by rw [joined_all hst]; exact hsplit)
        by_cases hn : w = [] ∧ NeedsHost u []
        · exact k1 hn
        · obtain ⟨e, he⟩ := hgood (by omega)
          obtain ⟨k, hk'⟩ := k2 hn h e he
          rw [if_neg hnull, show { u with host := some h } = u by rw [← hh]] at hk'
          exact ⟨k, hk'⟩
  | port =>
    obtain rfl : getPort u = t := by simpa [got] using ht
    rcases cred hfix with h | h
    · refine ⟨0, fun n _ => ?_⟩
      show setPort toAscii fuel n u _ = _
      unfold setPort; rw [h]
    · obtain ⟨k1, k2⟩ := C48_strings toAscii u (getPort u) fuel hv ((may_iff hv).mp h)
      cases hp : u.port with
      | none =>
        have e : getPort u = [] := by unfold getPort; rw [hp]
        refine ⟨0, fun n _ => ?_⟩
        show setPort toAscii fuel n u _ = _
        rw [k1 e n, ← hp]
      | some p =>
        obtain ⟨d1, d2, d3, d4, d5⟩ := pnum p hp
        have e : getPort u = decimal p := by unfold getPort; rw [hp]; exact hsp p hp
        obtain ⟨u', k, hu', hk'⟩ := k2 (by rw [e]; exact Verif.Proof.Host4.decimal_ne_nil p)
        rw [e, d4] at hu'
        have := hu'.2 p (by rw [d1]; exact d2)
        rw [d1] at this
        have := this.1 d3
        rw [d5] at this
        rw [this] at hk'
        exact ⟨k, hk'⟩
  | pathname =>
    cases hb : u.cannotBeBase with
    | true =>
      refine ⟨0, fun n _ => ?_⟩
      show setPathname toAscii fuel n u t = _
      unfold setPathname
      rw [hb]
      rfl
    | false =>
      obtain rfl : segsText u.path = t := by
        have : getPathname u = some t := ht
        unfold getPathname at this
        rw [hb] at this
        injection this
      obtain ⟨k, hk'⟩ := (C115 toAscii u (segsText u.path) fuel (scalar_stays fun c hc => (segs_chars hv hb c hc).1) hf).2.2.2 hb
      rw [path_text hv hb hfix] at hk'
      exact ⟨k, hk'⟩
  | search =>
    obtain rfl : getSearch u = t := by simpa [got] using ht
    have hst : ∀ c ∈ getSearch u, Stays c := by
      intro c hc
      unfold getSearch at hc
      cases hq : u.query with
      | none => rw [hq] at hc; cases hc
      | some q =>
        rw [hq] at hc
        dsimp only at hc
        split at hc
        · cases hc
        · rcases List.mem_cons.mp hc with rfl | hc
          · decide
          · exact noset (hv.query q hq c hc).1
    obtain ⟨k, hk'⟩ := (C115 toAscii u (getSearch u) fuel (scalar_stays hst) hf).2.1
    have e : queryOf u.scheme (getSearch u) = u.query := by
      cases hq : u.query with
      | none => unfold queryOf getSearch; rw [hq]; rfl
      | some q =>
        have hne : q ≠ [] := fun h => hfix (by rw [hq, h])
        have g : getSearch u = 0x3F :: q := by unfold getSearch; rw [hq]; exact if_neg hne
        have hun : unmarked (fun c => decide (c = 0x3F)) (0x3F :: q) = q := by simp [unmarked]
        rw [g, queryOf, if_neg (by simp), hun, joined_all fun c hc => noset (hv.query q hq c hc).1, encoded_all fun c hc => ?_]
        split
        · rename_i h; exact (hv.query q hq c hc).2 h
        · exact (hv.query q hq c hc).1
    rw [e] at hk'
    exact ⟨k, hk'⟩
  | hash =>
    obtain rfl : getHash u = t := by simpa [got] using ht
    have hst : ∀ c ∈ getHash u, Stays c := by
      intro c hc
      unfold getHash at hc
      cases hq : u.fragment with
      | none => rw [hq] at hc; cases hc
      | some q =>
        rw [hq] at hc
        dsimp only at hc
        split at hc
        · cases hc
        · rcases List.mem_cons.mp hc with rfl | hc
          · decide
          · exact noset (hv.fragment q hq c hc)
    obtain ⟨k, hk'⟩ := (C115 toAscii u (getHash u) fuel (scalar_stays hst) hf).2.2.1
    have e : fragmentOf (getHash u) = u.fragment := by
      cases hq : u.fragment with
      | none => unfold fragmentOf getHash; rw [hq]; rfl
      | some q =>
        have hne : q ≠ [] := fun h => hfix (by rw [hq, h])
        have g : getHash u = 0x23 :: q := by unfold getHash; rw [hq]; exact if_neg hne
        have hun : unmarked (fun c => decide (c = 0x23)) (0x23 :: q) = q := by simp [unmarked]
        rw [g, fragmentOf, if_neg (by simp), hun, joined_all fun c hc => noset (hv.fragment q hq c hc),
          encoded_all fun c hc => hv.fragment q hq c hc]
    rw [e] at hk'
    exact ⟨k, hk'⟩

/-- `https://us:pw@[1::2]:8080/a/b?q#f`: nothing changes. -/
example : ∃ u, Reachable plain u ∧ Fixed u .protocol ∧ Fixed u .host ∧ Fixed u .pathname ∧ Fixed u .search ∧ Fixed u .hash ∧
    got u .host = some (codes "[1::2]:8080") ∧ got u .pathname = some (codes "/a/b") ∧ got u .search = some (codes "?q") := by
  have h : first "https://us:pw@[1::2]:8080/a/b?q#f" (fun u => decide (u.host = some (.ipv6 [1, 0, 0, 0, 0, 0, 0, 2]) ∧ u.scheme = codes "https" ∧
    u.query = some (codes "q") ∧ u.fragment = some (codes "f") ∧
    got u .host = some (codes "[1::2]:8080") ∧ got u .pathname = some (codes "/a/b") ∧ got u .search = some (codes "?q"))) = true := by decide +kernel
  obtain ⟨u, _, h2, h3⟩ := first_of h
  obtain ⟨k1, k2, k3, k4, k5, k6, k7⟩ := of_decide_eq_true h3
  refine ⟨u, h2, trivial, ⟨by rw [k1]; simp, fun hf => ?_, fun a ha => ?_⟩, fun hf => ?_, ?_, ?_, k5, k6, k7⟩
  · rw [k2] at hf; exact absurd hf (by decide)
  · rw [k1] at ha
    injection ha with ha
    injection ha with ha
    subst ha
    decide
  · rw [k2] at hf; exact absurd hf (by decide)
  · show u.query ≠ some []
    rw [k3]; decide
  · show u.fragment ≠ some []
    rw [k4]; decide

/-- URLs, setters, and the texts of the URLs after setting a part to what it is. -/
def changes : List (String × Setter × String) :=
  [("http://h/?", .search, "http://h/"), ("http://h/#", .hash, "http://h/"), ("a:/b", .hostname, "a:///b"), ("file://ab/", .hostname, "file://aab/"),
    ("file://ab/", .host, "file://aab/"), ("http://[1:0:1:0:1:0:1:1]/", .host, "http://[1:0:1::1:1]/")]

/-- C120. URLs that change: an empty query or fragment is removed, a URL without a host gets an empty one, the first character of the
host of a `file` URL is doubled, and an IPv6 address becomes another one. -/
theorem C120_changed : ∀ w ∈ changes, ∃ u v t, create plain 600 2500 (codes w.1) none = .stop (some u) ∧ Reachable plain u ∧ got u w.2.1 = some t ∧
    w.2.1.call plain 600 2500 u t = .stop v ∧ serializeUrl v false = some (codes w.2.2) ∧ serializeUrl u false ≠ serializeUrl v false := by
  have h : ∀ w ∈ changes, first w.1 (fun u => match got u w.2.1 with
    | some t => match w.2.1.call plain 600 2500 u t with
      | .stop v => decide (serializeUrl v false = some (codes w.2.2) ∧ serializeUrl u false ≠ serializeUrl v false)
      | _ => false
    | none => false) = true := by decide +kernel
  intro w hw
  obtain ⟨u, h1, h2, h3⟩ := first_of (h w hw)
  split at h3
  · rename_i t ht
    split at h3
    · rename_i v hv
      exact ⟨u, v, t, h1, h2, ht, hv, of_decide_eq_true h3⟩
    · cases h3
  · cases h3

theorem C120_statement_false : ¬ C120_statement := by
  intro h
  have h1 : first "http://h/?" (fun u => decide (u.query = some [])) = true := by decide +kernel
  obtain ⟨u, -, h2, h3⟩ := first_of h1
  have hq := of_decide_eq_true h3
  have hg : getSearch u = [] := by unfold getSearch; rw [hq]; rfl
  obtain ⟨k, hk⟩ := h plain plain_settled u h2 .search [] (congrArg some hg) 20 (by simp)
  have h4 := hk k (Nat.le_refl k)
  change setSearch plain 20 k u [] = .stop u at h4
  unfold setSearch at h4
  rw [if_pos rfl] at h4
  injection h4 with h4
  have h5 : u.query = none := by rw [← h4]
  rw [hq] at h5
  cases h5

end Verif.Props.UrlGet
