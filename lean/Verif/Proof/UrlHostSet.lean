import Verif.Proof.UrlSetters
import Verif.Spec.UrlGet
/- What the URL parser does for the setters of host and port. -/
namespace Verif.Proof.UrlHostSet
open Verif.Model.Infra Verif.Model.Unicode Verif.Model.Coder Verif.Model.Legacy Verif.Model.Percent Verif.Model.Host Verif.Model.Url
open Verif.Spec Verif.Spec.Percent Verif.Spec.Host Verif.Spec.Url Verif.Spec.UrlSet Verif.Spec.UrlGet
open Verif.Proof.UrlInner Verif.Proof.UrlEnds Verif.Proof.UrlValid Verif.Proof.UrlStep Verif.Proof.UrlApi Verif.Proof.UrlPort
open Verif.Proof.UrlAgain Verif.Proof.UrlSetters Verif.Props.Percent

/-- A URL and the digits of a port. -/
def portUrl (u : Url) (ds : List Nat) : Url :=
  if ds = [] ∨ 5 < ds.length ∨ 0xFFFF ≤ portOf ds then u
  else { u with port := if some (portOf ds) = defaultPort u.scheme then none else some (portOf ds) }

theorem digit_iff (c : Nat) : isAsciiDigit c = true ↔ 0x30 ≤ c ∧ c ≤ 0x39 := by simp [isAsciiDigit]

section
variable {x : Ctx}

theorem onPort_stops (ne : x.override ≠ none) (s : St) (c : Nat) (hd : ¬ isAsciiDigit c = true) :
    ∃ s', (onPort x s c = .ret s' ∨ onPort x s c = .failure s') ∧ s'.url = portUrl s.url s.buffer := by
  unfold onPort portUrl
  rw [if_neg hd, if_pos (Or.inr ne)]
  split
  · rename_i h
    exact ⟨_, Or.inr rfl, by rw [if_pos (Or.inr h.2)]; rfl⟩
  · rename_i h
    refine ⟨_, Or.inl rfl, ?_⟩
    by_cases hb : s.buffer = []
    · rw [if_pos (Or.inl hb), if_neg (fun h => h hb)]
    · have h3 : ¬ (s.buffer = [] ∨ 5 < s.buffer.length ∨ 0xFFFF ≤ portOf s.buffer) := by
        rintro (h' | h')
        exacts [hb h', h ⟨hb, h'⟩]
      rw [if_neg h3, if_pos hb]

theorem port_reads (ne : x.override ≠ none) (u : Url) (a i t : Bool) (s : List Nat) : ∀ (b : List Nat), s <:+ x.input →
    Stops x ⟨.port, u, b, s, a, i, t⟩ (portUrl u (b ++ digits s)) := by
  have stop : ∀ (b : List Nat) (r : List Nat), r <:+ x.input → ¬ isAsciiDigit (headOf r) = true → Stops x ⟨.port, u, b, r, a, i, t⟩ (portUrl u b) := by
    intro b r hr hd
    have st : ∀ ec, step x ((⟨.port, u, b, r, a, i, t⟩ : Cfg).st x ec) = onPort x ((⟨.port, u, b, r, a, i, t⟩ : Cfg).st x ec) (headOf r) := by
      intro ec
      simp only [step, Cfg.st]
      rw [at_rest hr]
    intro ec
    obtain ⟨s', h1, h2⟩ := onPort_stops ne ((⟨.port, u, b, r, a, i, t⟩ : Cfg).st x ec) (headOf r) hd
    refine ⟨false, s', 1, h2, fun n => ?_⟩
    rw [run, st]
    rcases h1 with h1 | h1 <;> rw [h1]
  induction s with
  | nil =>
    intro b hr
    simpa [digits] using stop b [] hr (by decide)
  | cons c s ih =>
    intro b hr
    by_cases hd : isAsciiDigit c = true
    · have e : b ++ digits (c :: s) = (b ++ [c]) ++ digits s := by
        simp [digits, (digit_iff c).mp hd]
      rw [e]
      refine goes_stops (goes_step fun ec => ⟨ec, ?_⟩) (ih (b ++ [c]) ((List.suffix_cons c _).trans hr))
      simp only [step, Cfg.st]
      rw [at_rest hr, headOf, onPort, if_pos hd]
      simp
      omega
    · have e : b ++ digits (c :: s) = b := by
        have : ¬ (0x30 ≤ c ∧ c ≤ 0x39) := fun h => hd ((digit_iff c).mpr h)
        simp [digits, this]
      rw [e]
      exact stop b (c :: s) hr hd

theorem portUrl_from (u : Url) (s : List Nat) : PortFrom (fun ds v => ds.length ≤ 5 ∧ v < 65535) u s (portUrl u (digits s)) := by
  refine ⟨fun h => by simp [portUrl, h], fun v hd => ?_⟩
  obtain ⟨hv, hne, -⟩ := portOf_numeral hd
  have hlt := numeral_lt hd
  have h10 : (digits s).length ≤ 5 → v < 100000 := fun h5 => by
    have : (10 : Nat) ^ (digits s).length ≤ 10 ^ 5 := Nat.pow_le_pow_right (by omega) h5
    omega
  constructor
  · rintro ⟨h5, h6⟩
    have hvv : portOf (digits s) = v := by rw [hv]; omega
    unfold portUrl
    rw [if_neg (by rw [hvv]; rintro (h | h | h); exacts [hne h, by omega, by omega]), hvv]
    have : (some v = defaultPort u.scheme) ↔ (u.scheme, some v) ∈ specials := by
      rw [← default_iff]; exact eq_comm
    simp only [withPort, this]
  · intro hn
    unfold portUrl
    rw [if_pos]
    by_cases h5 : (digits s).length ≤ 5
    · have := h10 h5
      exact Or.inr (Or.inr (by rw [hv]; omega))
    · exact Or.inr (Or.inl (by omega))

/-- A URL and what stands behind its host. -/
def portTail (u : Url) (r : List Nat) : Url := if r.head? = some 0x3A then portUrl u (digits r.tail) else u

/-- What the host parser makes of a text with a port behind it. -/
def HostPortIs (x : Ctx) (u : Url) (w r : List Nat) (v : Url) : Prop :=
  ∃ h e, parseHost x.toAscii x.fuel w (!isSpecial u) none = .stop (h, e) ∧ v = if h = .null then u else portTail { u with host := some h } r

theorem host_reads (ho : x.override = some .host) (u : Url) (hf : u.scheme ≠ codes "file") (s : List Nat) : ∀ (b : List Nat) (i : Bool),
    (∀ c ∈ s, c ≠ 0x0A) → s <:+ x.input →
    ∀ v, (if b ++ (hostPart (decide (Special u.scheme)) i s).1 = [] ∧ NeedsHost u (hostPart (decide (Special u.scheme)) i s).2 then v = u
      else HostPortIs x u (b ++ (hostPart (decide (Special u.scheme)) i s).1) (hostPart (decide (Special u.scheme)) i s).2 v) →
    Stops x ⟨.host, u, b, s, false, i, false⟩ v := by
  have ne : x.override ≠ none := by rw [ho]; simp
  have nf : ¬ (x.override ≠ none ∧ u.scheme = lit "file") := fun h => hf h.2
  have nh : ¬ x.override = some .hostname := by rw [ho]; simp
  have nsp : isSpecial u = true ↔ Special u.scheme := special_iff _
  -- the text ends
  have stop : ∀ (b : List Nat) (i : Bool) (r : List Nat) v, r <:+ x.input → endsAuthority u (headOf r) = true → r.head? ≠ some 0x3A → headOf r ≠ 0x3A →
      (if b = [] ∧ NeedsHost u r then v = u else HostPortIs x u b r v) → Stops x ⟨.host, u, b, r, false, i, false⟩ v := by
    intro b i r v hr he hh hh2 hv
    have st : ∀ ec, step x ((⟨.host, u, b, r, false, i, false⟩ : Cfg).st x ec) =
        (let s : St := { (⟨.host, u, b, r, false, i, false⟩ : Cfg).st x ec with pos := (x.input.length : Int) - r.length - 1 }
        if isSpecial u = true ∧ b = [] then .failure s.bad
        else if x.override ≠ none ∧ b = [] ∧ (includesCredentials u = true ∨ u.port.isSome = true) then .ret s.bad
        else hostOf x s fun s => .ret { s with state := .pathStart }) := by
      intro ec
      simp only [step, Cfg.st]
      rw [at_rest hr, onHostname]
      dsimp only
      rw [if_neg nf, if_neg (fun h => hh2 h.1)]
      dsimp only
      rw [if_pos he]
      simp only [if_pos ne]
    dsimp only at st
    have last : (isSpecial u = true ∧ b = []) = False → (x.override ≠ none ∧ b = [] ∧ (includesCredentials u = true ∨ u.port.isSome = true)) = False →
        HostPortIs x u b r v → Stops x ⟨.host, u, b, r, false, i, false⟩ v := by
      intro h1 h2 hv
      obtain ⟨h, e, hp, rfl⟩ := hv
      by_cases hn : h = .null
      · rw [if_pos hn]
        refine stops_fail fun ec => ?_
        rw [st, if_neg (by rw [h1]; exact id), if_neg (by rw [h2]; exact id), hostOf]
        simp only [Cfg.st]
        rw [hp]
        dsimp only
        rw [if_pos hn]
        exact ⟨_, by split <;> rfl, rfl⟩
      · rw [if_neg hn]
        refine stops_ret fun ec => ?_
        rw [st, if_neg (by rw [h1]; exact id), if_neg (by rw [h2]; exact id), hostOf]
        simp only [Cfg.st]
        rw [hp]
        dsimp only
        rw [if_neg hn]
        refine ⟨_, ?_, rfl⟩
        rw [portTail, if_neg hh]
        dsimp only
        split <;> rfl
    by_cases hb : b = []
    · by_cases hs : Special u.scheme
      · rw [if_pos ⟨hb, Or.inl hs⟩] at hv
        subst hv
        refine stops_fail fun ec => ?_
        rw [st, if_pos ⟨nsp.mpr hs, hb⟩]
        exact ⟨_, rfl, rfl⟩
      · by_cases hc : u.username ≠ [] ∨ u.password ≠ [] ∨ u.port ≠ none
        · rw [if_pos ⟨hb, Or.inr (Or.inr hc)⟩] at hv
          subst hv
          refine stops_ret fun ec => ?_
          rw [st, if_neg (fun h => hs (nsp.mp h.1)), if_pos ⟨ne, hb, (needs_iff _).mpr hc⟩]
          exact ⟨_, rfl, rfl⟩
        · rw [if_neg (by rintro ⟨_, h | h | h⟩; exacts [hs h, hh h, hc h])] at hv
          exact last (eq_false fun h => hs (nsp.mp h.1)) (eq_false fun h => hc ((needs_iff _).mp h.2.2)) hv
    · rw [if_neg (fun h => hb h.1)] at hv
      exact last (eq_false fun h => hb h.2) (eq_false fun h => hb h.2.1) hv
  induction s with
  | nil =>
    intro b i _ hr v hv
    simp only [hostPart, List.append_nil] at hv
    exact stop b i [] v hr (by simp [headOf, endsAuthority]) (by simp) (by simp [headOf]) hv
  | cons c s ih =>
    intro b i hn hr v hv
    have hw : s <:+ x.input := (List.suffix_cons c _).trans hr
    have hc0 := hn c (by simp)
    by_cases hcol : c = 0x3A ∧ i = false
    · have hcond : (c = 0x3A ∧ i = false) ∨ c ∈ codes "/?#" ∨ (decide (Special u.scheme) = true ∧ c = 0x5C) := Or.inl hcol
      simp only [hostPart, if_pos hcond, List.append_nil] at hv
      obtain ⟨rfl, rfl⟩ := hcol
      by_cases hb : b = []
      · rw [if_pos ⟨hb, Or.inr (Or.inl rfl)⟩] at hv
        subst hv
        refine stops_fail fun ec => ?_
        simp only [step, Cfg.st]
        rw [at_rest hr, onHostname, headOf]
        dsimp only
        rw [if_neg nf, if_pos (by simp), if_pos hb]
        exact ⟨_, rfl, rfl⟩
      · rw [if_neg (fun h => hb h.1)] at hv
        obtain ⟨h, e, hp, rfl⟩ := hv
        by_cases hnull : h = .null
        · rw [if_pos hnull]
          refine stops_fail fun ec => ?_
          simp only [step, Cfg.st]
          rw [at_rest hr, onHostname, headOf]
          dsimp only
          rw [if_neg nf, if_pos (by simp), if_neg hb, hostOf]
          dsimp only
          rw [hp]
          dsimp only
          rw [if_pos hnull]
          exact ⟨_, by split <;> rfl, rfl⟩
        · rw [if_neg hnull, portTail, if_pos (by simp)]
          have hport := port_reads ne { u with host := some h } false false false s [] hw
          rw [List.nil_append] at hport
          refine goes_stops (goes_step fun ec => ?_) hport
          simp only [step, Cfg.st]
          rw [at_rest hr, onHostname, headOf]
          dsimp only
          rw [if_neg nf, if_pos (by simp), if_neg hb, hostOf]
          dsimp only
          rw [hp]
          dsimp only
          rw [if_neg hnull, if_neg nh]
          refine ⟨if e.isSome then e else ec, ?_⟩
          split <;> (simp; omega)
    · by_cases he : endsAuthority u c = true
      · have h2 := (ends_eq u c hc0).mp he
        have hcond : (c = 0x3A ∧ i = false) ∨ c ∈ codes "/?#" ∨ (decide (Special u.scheme) = true ∧ c = 0x5C) := by
          rcases h2 with h | h
          · exact Or.inr (Or.inl h)
          · exact Or.inr (Or.inr ⟨by simp [h.1], h.2⟩)
        have h3 : c ≠ 0x3A := by intro h3; rw [h3] at he; simp [endsAuthority] at he
        simp only [hostPart, if_pos hcond, List.append_nil] at hv
        exact stop b i (c :: s) v hr he (by simpa using h3) h3 hv
      · have hcond : ¬ ((c = 0x3A ∧ i = false) ∨ c ∈ codes "/?#" ∨ (decide (Special u.scheme) = true ∧ c = 0x5C)) := by
          rintro (h | h | h)
          · exact hcol h
          · exact he ((ends_eq u c hc0).mpr (Or.inl h))
          · exact he ((ends_eq u c hc0).mpr (Or.inr ⟨of_decide_eq_true h.1, h.2⟩))
        rw [hostPart, if_neg hcond] at hv
        dsimp only at hv
        refine goes_stops ?_ (ih (b ++ [c]) (if c = 0x5B then true else if c = 0x5D then false else i) (fun d hd => hn d (by simp [hd])) hw v ?_)
        · refine goes_step fun ec => ⟨ec, ?_⟩
          simp only [step, Cfg.st]
          rw [at_rest hr, onHostname, headOf]
          dsimp only
          rw [if_neg nf, if_neg hcol, if_neg he]
          by_cases h5 : c = 0x5B
          · subst h5
            simp
            omega
          · by_cases h6 : c = 0x5D
            · subst h6
              simp
              omega
            · simp [h5, h6]
              omega
        · simpa using hv

/-- What becomes of the host of a `file` URL. -/
def FileIs (x : Ctx) (u : Url) (w : List Nat) (v : Url) : Prop :=
  ∃ h e, parseHost x.toAscii x.fuel w (!isSpecial u) none = .stop (h, e) ∧ (h = .null ∨ ∃ d, h = .domain d) ∧
    v = if h = .null then u else { u with host := some (if h = .domain (codes "localhost") then .empty else h) }

theorem file_ends (c : Nat) (h : c ≠ 0x0A) : (c = 0x0A ∨ c = 0x2F ∨ c = 0x5C ∨ c = 0x3F ∨ c = 0x23) ↔ c ∈ codes "/\\?#" := by
  have e : codes "/\\?#" = [0x2F, 0x5C, 0x3F, 0x23] := by decide
  rw [e]
  simp [h]

theorem fileHost_reads (ne : x.override ≠ none) (u : Url) (i : Bool) (s : List Nat) : ∀ (b : List Nat), b ≠ [] →
    (∀ c ∈ s, c ≠ 0x0A) → s <:+ x.input → ∀ v, FileIs x u (b ++ fileHostText s) v → Stops x ⟨.fileHost, u, b, s, false, i, false⟩ v := by
  have stop : ∀ (b : List Nat) (r : List Nat) v, b ≠ [] → r <:+ x.input → (headOf r = 0x0A ∨ headOf r = 0x2F ∨ headOf r = 0x5C ∨ headOf r = 0x3F ∨ headOf r = 0x23) →
      FileIs x u b v → Stops x ⟨.fileHost, u, b, r, false, i, false⟩ v := by
    intro b r v hb hr he hv
    obtain ⟨h, e, hp, hd, rfl⟩ := hv
    by_cases hn : h = .null
    · rw [if_pos hn]
      refine stops_fail fun ec => ?_
      simp only [step, Cfg.st]
      rw [at_rest hr, onFileHost, if_pos he]
      dsimp only
      rw [if_neg (fun h => ne h.1), if_neg hb, hp]
      dsimp only
      rw [if_pos hn]
      exact ⟨_, by split <;> rfl, rfl⟩
    · rw [if_neg hn]
      have hq : ∃ q, hostEq h (lit "localhost") = some q ∧ (q = true ↔ h = .domain (codes "localhost")) := by
        rw [show lit "localhost" = codes "localhost" from rfl]
        obtain ⟨d, rfl⟩ := hd.resolve_left hn
        exact ⟨_, rfl, by simp⟩
      obtain ⟨q, hq1, hq2⟩ := hq
      refine stops_ret fun ec => ?_
      simp only [step, Cfg.st]
      rw [at_rest hr, onFileHost, if_pos he]
      dsimp only
      have h0 : ¬ (x.override = none ∧ isWindowsDriveLetter b = true) := fun h => ne h.1
      rw [if_neg h0, if_neg hb, hp]
      dsimp only
      rw [if_neg hn, hq1]
      dsimp only
      rw [if_pos ne]
      refine ⟨_, ?_, rfl⟩
      dsimp only
      simp only [hq2]
      split <;> rfl
  induction s with
  | nil =>
    intro b hb _ hr v hv
    exact stop b [] v hb hr (by simp [headOf]) (by simpa [fileHostText] using hv)
  | cons c s ih =>
    intro b hb hn hr v hv
    have hc0 := hn c (by simp)
    by_cases he : c ∈ codes "/\\?#"
    · refine stop b (c :: s) v hb hr ((file_ends c hc0).mpr he) ?_
      simpa [fileHostText, he] using hv
    · refine goes_stops (goes_step fun ec => ⟨ec, ?_⟩) (ih (b ++ [c]) (by simp) (fun d hd => hn d (by simp [hd])) ((List.suffix_cons c _).trans hr) v ?_)
      · simp only [step, Cfg.st]
        rw [at_rest hr, headOf, onFileHost, if_neg (fun h => he ((file_ends c hc0).mp h))]
        simp
        omega
      · simpa [fileHostText, he] using hv

theorem onHostname_file (s : St) (c : Nat) (hfile : x.override ≠ none ∧ s.url.scheme = lit "file") (hb : s.buffer = [])
    (hi : s.insideBrackets = false) (hsp : isSpecial s.url = true) :
    (c = 0x3A ∨ endsAuthority s.url c = true → ∃ s', s'.url = s.url ∧ onHostname x s c = .failure s') ∧
    (c ≠ 0x3A → ¬ endsAuthority s.url c = true → onHostname x s c =
      .cont { s with pos := s.pos - 1, state := .fileHost, insideBrackets := decide (c = 0x5B), buffer := [c] }) := by
  unfold onHostname
  generalize hs1 : (if x.override ≠ none ∧ s.url.scheme = lit "file" then { s with pos := s.pos - 1, state := .fileHost } else s) = s1
  rw [if_pos hfile] at hs1
  dsimp only
  constructor
  · intro h
    by_cases hcol : c = 0x3A
    · rw [if_pos ⟨hcol, by rw [← hs1]; exact hi⟩, if_pos (by rw [← hs1]; exact hb)]
      exact ⟨_, by rw [← hs1]; rfl, rfl⟩
    · rw [if_neg (fun h => hcol h.1), if_pos (by rw [← hs1]; exact h.resolve_left hcol), if_pos ⟨by rw [← hs1]; exact hsp, by rw [← hs1]; exact hb⟩]
      exact ⟨_, by rw [← hs1]; rfl, rfl⟩
  · intro hcol he
    rw [if_neg (fun h => hcol h.1), if_neg (by rw [← hs1]; exact he), ← hs1]
    by_cases h5 : c = 0x5B
    · subst h5; simp [hb]
    · by_cases h6 : c = 0x5D
      · subst h6; simp [hb]
      · simp [h5, h6, hb, hi]

/-- The host of a `file` URL: the first code point is read twice. -/
theorem file_reads (ne : x.override ≠ none) {q : State} (hq : q = .host ∨ q = .hostname) (u : Url) (hf : u.scheme = codes "file") (s : List Nat)
    (hn : ∀ c ∈ s, c ≠ 0x0A) (hr : s <:+ x.input) :
    (s = [] ∨ s.head? = some 0x3A ∨ (∃ c, s.head? = some c ∧ c ∈ codes "/\\?#") → Stops x ⟨q, u, [], s, false, false, false⟩ u) ∧
    (∀ c t, s = c :: t → c ≠ 0x3A → c ∉ codes "/\\?#" → ∀ v, FileIs x u (c :: fileHostText s) v → Stops x ⟨q, u, [], s, false, false, false⟩ v) := by
  have hsp : isSpecial u = true := (special_iff _).mpr (by rw [hf]; decide)
  have hfile : x.override ≠ none ∧ u.scheme = lit "file" := ⟨ne, hf⟩
  have st : ∀ ec, step x ((⟨q, u, [], s, false, false, false⟩ : Cfg).st x ec) = onHostname x ((⟨q, u, [], s, false, false, false⟩ : Cfg).st x ec) (headOf s) := by
    intro ec
    rcases hq with rfl | rfl
    all_goals
      simp only [step, Cfg.st]
      rw [at_rest hr]
  have key := fun ec => onHostname_file (x := x) ((⟨q, u, [], s, false, false, false⟩ : Cfg).st x ec) (headOf s) hfile rfl rfl hsp
  constructor
  · intro h
    refine stops_fail fun ec => ?_
    rw [st]
    refine (key ec).1 ?_
    cases s with
    | nil => exact Or.inr (by simp [headOf, endsAuthority])
    | cons c s =>
      rcases h with h | h | ⟨d, h, h'⟩
      · cases h
      · exact Or.inl (by simpa [headOf] using h)
      · obtain rfl : c = d := by simpa using h
        have := (file_ends c (hn c (by simp))).mpr h'
        right
        show endsAuthority u c = true
        simp [endsAuthority, hsp]
        omega
  · intro c t hs hc1 hc2 v hv
    have hc0 := hn c (by rw [hs]; simp)
    have he : ¬ endsAuthority u c = true := by
      intro h
      refine hc2 ((file_ends c hc0).mp ?_)
      simp [endsAuthority, hsp, hc0] at h
      omega
    refine goes_stops (goes_step fun ec => ⟨ec, ?_⟩) (fileHost_reads ne u (decide (c = 0x5B)) s [c] (by simp) hn hr v hv)
    have hh : headOf s = c := by rw [hs]; rfl
    rw [st, (key ec).2 (by rw [hh]; exact hc1) (by rw [hh]; exact he), hh]
    simp [Cfg.st]

end

end Verif.Proof.UrlHostSet
