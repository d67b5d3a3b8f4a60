import Verif.Proof.UrlAgain
import Verif.Spec.UrlSet
/- What the URL parser does for the setters: it starts in the state of one part and stays there. -/
namespace Verif.Proof.UrlSetters
open Verif.Model.Infra Verif.Model.Unicode Verif.Model.Coder Verif.Model.Legacy Verif.Model.Percent Verif.Model.Host Verif.Model.Url
open Verif.Spec Verif.Spec.Percent Verif.Spec.Host Verif.Spec.Url Verif.Spec.UrlSet
open Verif.Proof.UrlInner Verif.Proof.UrlEnds Verif.Proof.UrlValid Verif.Proof.UrlStep Verif.Proof.UrlApi Verif.Proof.UrlPort
open Verif.Proof.UrlAgain Verif.Props.Percent

/-! ### The other parts -/

/-- What may differ, given the state a parser was started in. -/
def SameBut (o : State) (u v : Url) : Prop :=
  match o with
  | .schemeStart => ∃ t p, v = { u with scheme := t, port := p } ∧ (p = u.port ∨ p = none)
  | .host => ∃ h p, v = { u with host := h, port := p }
  | .hostname => ∃ h, v = { u with host := h }
  | .port => ∃ p, v = { u with port := p }
  | .pathStart => ∃ p, v = { u with path := p }
  | .query => ∃ q, v = { u with query := q }
  | .fragment => ∃ f, v = { u with fragment := f }
  | _ => False

/-- The states it gets to. -/
def stays : State → List State
  | .schemeStart => [.schemeStart, .scheme]
  | .host => [.host, .port, .fileHost]
  | .hostname => [.hostname, .fileHost]
  | .port => [.port]
  | .pathStart => [.pathStart, .path]
  | .query => [.query]
  | .fragment => [.fragment]
  | _ => []

/-- What an iteration may do. -/
def FOk (o : State) (u : Url) : Step → Prop
  | .cont s' => SameBut o u s'.url ∧ s'.state ∈ stays o
  | .ret s' => SameBut o u s'.url
  | .failure s' => SameBut o u s'.url
  | _ => True

theorem push_path {u v : Url} {b : List Nat} {slash : Bool} (h : pushSegment u b slash = some v) : ∃ p, v = { u with path := p } := by
  unfold pushSegment at h
  split at h
  · cases h
  · obtain ⟨ps, hs, _⟩ := shorten_path u
    rw [hs] at h
    simp only [Option.some.injEq] at h
    subst h
    split <;> exact ⟨_, rfl⟩
  · split at h
    · simp only [Option.some.injEq] at h
      subst h
      split
      · exact ⟨u.path, by cases u; rfl⟩
      · exact ⟨_, rfl⟩
    · simp only [Option.some.injEq] at h
      subst h
      exact ⟨_, rfl⟩

theorem hostOf_f {x : Ctx} {s : St} {k : St → Step} {o : State} {u : Url} (ho : o = .host ∨ o = .hostname) (h : SameBut o u s.url)
    (hk : ∀ t : St, SameBut o u t.url → FOk o u (k t)) : FOk o u (hostOf x s k) := by
  unfold hostOf
  split
  · trivial
  · trivial
  · rename_i hh e hp
    dsimp only
    split
    · show SameBut _ _ _
      split <;> exact h
    · refine hk _ ?_
      have : ∀ t : Url, SameBut o u t → SameBut o u { t with host := some hh } := by
        rcases ho with rfl | rfl
        · rintro _ ⟨h, p, rfl⟩; exact ⟨_, _, rfl⟩
        · rintro _ ⟨h, rfl⟩; exact ⟨_, rfl⟩
      split <;> exact this _ h

theorem hostname_f {x : Ctx} {s : St} {o : State} {u : Url} (hx : x.override = some o) (ho : o = .host ∨ o = .hostname) (h : SameBut o u s.url)
    (hst : s.state ∈ stays o) : FOk o u (onHostname x s (x.at s.pos)) := by
  unfold onHostname
  generalize hs1 : (if x.override ≠ none ∧ s.url.scheme = lit "file" then { s with pos := s.pos - 1, state := .fileHost } else s) = s1
  have h1 : SameBut o u s1.url := by subst hs1; split <;> exact h
  have h2 : s1.state ∈ stays o := by
    subst hs1
    split
    · rcases ho with rfl | rfl <;> simp [stays]
    · exact hst
  dsimp only
  split
  · split
    · exact h1
    · refine hostOf_f ho h1 fun t ht => ?_
      rw [hx]
      split
      · exact ht
      · rename_i hne
        rcases ho with rfl | rfl
        · exact ⟨ht, by simp [stays]⟩
        · exact absurd rfl hne
  · split
    · split
      · exact h1
      · split
        · exact h1
        · refine hostOf_f ho h1 fun t ht => ?_
          rw [if_pos (by rw [hx]; simp)]
          exact ht
    · repeat' split
      all_goals exact ⟨h1, h2⟩

theorem port_f {x : Ctx} {s : St} {o : State} {u : Url} (hx : x.override = some o) (ho : o = .host ∨ o = .port) (h : SameBut o u s.url)
    (hst : s.state ∈ stays o) : FOk o u (onPort x s (x.at s.pos)) := by
  unfold onPort
  dsimp only
  split
  · exact ⟨h, hst⟩
  split
  · split
    · exact h
    · rw [if_pos (by rw [hx]; simp)]
      show SameBut _ _ _
      split
      · rcases ho with rfl | rfl
        · obtain ⟨hh, p, e⟩ := h
          exact ⟨hh, _, by rw [e]⟩
        · obtain ⟨p, e⟩ := h
          exact ⟨_, by rw [e]⟩
      · exact h
  · exact h

theorem fileHost_f {x : Ctx} {s : St} {o : State} {u : Url} (hx : x.override = some o) (ho : o = .host ∨ o = .hostname) (h : SameBut o u s.url)
    (hst : s.state ∈ stays o) : FOk o u (onFileHost x s (x.at s.pos)) := by
  have key : ∀ (t : Url) hh, SameBut o u t → SameBut o u { t with host := hh } := by
    rcases ho with rfl | rfl
    · rintro _ _ ⟨h, p, rfl⟩; exact ⟨_, _, rfl⟩
    · rintro _ _ ⟨h, rfl⟩; exact ⟨_, rfl⟩
  unfold onFileHost
  dsimp only
  split
  · rw [if_neg (by rw [hx]; simp)]
    split
    · rw [if_pos (by rw [hx]; simp)]
      exact key _ _ h
    split
    · trivial
    · trivial
    · split
      · show SameBut _ _ _
        split <;> exact h
      split
      · trivial
      · rw [if_pos (by rw [hx]; simp)]
        refine key _ _ ?_
        split <;> exact h
  · exact ⟨h, hst⟩

theorem step_same {x : Ctx} {s : St} {o : State} {u : Url} (hx : x.override = some o) (h : SameBut o u s.url) (hst : s.state ∈ stays o) :
    FOk o u (step x s) := by
  have ne : x.override ≠ none := by rw [hx]; simp
  cases o <;> simp only [stays, List.mem_cons, List.not_mem_nil, or_false] at hst
  case schemeStart =>
    rcases hst with hst | hst <;> rw [step, hst] <;> dsimp only
    · unfold onSchemeStart
      split
      · split
        · trivial
        · exact ⟨h, by simp [stays]⟩
      · exact h
    · unfold onScheme
      split
      · split
        · trivial
        · exact ⟨h, by rw [hst]; simp [stays]⟩
      · split
        · split
          · trivial
          · exact h
          · obtain ⟨t, p, e, hp⟩ := h
            dsimp only
            split
            · exact ⟨s.buffer, none, by rw [e], Or.inr rfl⟩
            · exact ⟨s.buffer, p, by rw [e], hp⟩
        · exact h
  case host =>
    rcases hst with hst | hst | hst <;> rw [step, hst] <;> dsimp only
    · exact hostname_f hx (.inl rfl) h (by rw [hst]; simp [stays])
    · exact port_f hx (.inl rfl) h (by rw [hst]; simp [stays])
    · exact fileHost_f hx (.inl rfl) h (by rw [hst]; simp [stays])
  case hostname =>
    rcases hst with hst | hst <;> rw [step, hst] <;> dsimp only
    · exact hostname_f hx (.inr rfl) h (by rw [hst]; simp [stays])
    · exact fileHost_f hx (.inr rfl) h (by rw [hst]; simp [stays])
  case port =>
    rw [step, hst]; dsimp only
    exact port_f hx (.inr rfl) h (by rw [hst]; simp [stays])
  case pathStart =>
    rcases hst with hst | hst <;> rw [step, hst] <;> dsimp only
    · unfold onPathStart
      dsimp only
      split
      · split <;> refine ⟨?_, by simp [stays]⟩ <;> simpa using h
      rw [if_neg (fun hh => ne hh.1), if_neg (fun hh => ne hh.1)]
      repeat' split
      all_goals exact ⟨h, by simp [stays, hst]⟩
    · unfold onPath
      dsimp only
      split
      · rename_i hc
        rw [hx] at hc
        split
        · trivial
        · rename_i v hv
          obtain ⟨p, e⟩ := push_path hv
          obtain ⟨q, e2⟩ := h
          have hn : x.at s.pos ≠ 0x3F ∧ x.at s.pos ≠ 0x23 := by
            constructor <;> (intro hh; rw [hh] at hc; simp at hc)
          rw [if_neg hn.1, if_neg hn.2]
          refine ⟨⟨p, ?_⟩, by simp [stays, hst]⟩
          rw [e]
          simp [e2]
      · split
        · trivial
        · trivial
        · exact ⟨by simpa using h, by simp [stays, hst]⟩
  case query =>
    rw [step, hst]; dsimp only
    unfold onQuery
    dsimp only
    generalize hs1 : (if s.enc ≠ .UTF_8 ∧ (isSpecial s.url = false ∨ s.url.scheme = lit "ws" ∨ s.url.scheme = lit "wss") then
      { s with enc := .UTF_8 } else s) = s1
    have h1 : s1.url = s.url ∧ s1.state = .query := by subst hs1; split <;> exact ⟨rfl, hst⟩
    split
    · rename_i hc
      have hn : x.at s.pos ≠ 0x23 := by
        intro hh
        rcases hc with hc | hc
        · exact ne hc.1
        · rw [hh] at hc; cases hc
      split
      · trivial
      · trivial
      split
      · trivial
      · rw [if_neg hn]
        obtain ⟨q, e⟩ := h
        exact ⟨⟨_, by rw [h1.1, e]⟩, by simp [stays, h1.2]⟩
    · refine ⟨?_, by simp [stays, h1.2]⟩
      simpa [h1.1] using h
  case fragment =>
    rw [step, hst]; dsimp only
    unfold onFragment
    dsimp only
    split
    · split
      · trivial
      · trivial
      split
      · trivial
      · rename_i e' _ _ l _
        obtain ⟨q, e⟩ := h
        exact ⟨⟨some (l ++ e'), by simp [e]⟩, by simp [stays, hst]⟩
    · exact ⟨h, by simp [stays, hst]⟩

theorem run_same {x : Ctx} {o : State} {u : Url} (hx : x.override = some o) : ∀ (n : Nat) (s : St) (b : Bool) (s' : St), SameBut o u s.url →
    s.state ∈ stays o → run x n s = .stop (b, s') → SameBut o u s'.url := by
  intro n
  induction n with
  | zero => intro s b s' _ _ h; cases h
  | succ n ih =>
    intro s b s' hs ht h
    have hk := step_same hx hs ht
    rw [run] at h
    cases hst : step x s with
    | ub => rw [hst] at h; cases h
    | more => rw [hst] at h; cases h
    | failure t => rw [hst] at h hk; injection h with h; injection h with _ h; exact h ▸ hk
    | ret t => rw [hst] at h hk; injection h with h; injection h with _ h; exact h ▸ hk
    | cont t =>
      rw [hst] at h hk
      dsimp only at h
      split at h
      · exact ih { t with pos := t.pos + 1 } b s' hk.1 hk.2 h
      · injection h with h; injection h with _ h; exact h ▸ hk.1

theorem into_same {toAscii : List Nat → Ec → List Nat × Ec} {fuel n : Nat} {t : List Nat} {u v w : Url} {o : State} (hu : SameBut o u v)
    (ho : o ∈ stays o) (h : after (parseInto toAscii fuel n t v o) = .stop w) : SameBut o u w := by
  obtain ⟨b, s', h3, rfl⟩ := after_stop h
  unfold parseInto at h3
  exact run_same (x := ⟨_, _, _, toAscii, fuel⟩) rfl _ _ _ _ hu ho h3

/-! ### Query and fragment -/

section
variable {x : Ctx} {o : State} (ho : x.override = some o) (hc : CInv x)

theorem suffix_scalar (hc : CInv x) {r : List Nat} (h : r <:+ x.input) : ∀ c ∈ r, IsScalar c := fun c hm => hc.scal c (h.mem hm)

include hc in
theorem fragment_reads (u : Url) (w : List Nat) : ∀ (f : List Nat), (∀ c ∈ w, c ≠ 0x0A) → w <:+ x.input →
    Finishes x ⟨.fragment, { u with fragment := some f }, [], w, false, false, false⟩ { u with fragment := some (f ++ enc8 .fragment w) } := by
  induction w with
  | nil => intro f _ _; simpa [enc8] using fragment_ends (x := x) (u := { u with fragment := some f }) (a := false) (t := false)
  | cons c w ih =>
    intro f hn hr
    have h2 := ih (f ++ enc8 .fragment [c]) (fun d hd => hn d (by simp [hd])) ((List.suffix_cons c _).trans hr)
    rw [List.append_assoc, ← enc8_append] at h2
    refine Goes.ends ?_ h2
    refine goes_step fun ec => ?_
    simp only [step, Cfg.st]
    rw [at_rest hr, onFragment, headOf, if_pos (hn c (by simp))]
    dsimp only
    rw [show isFragmentSet = setOf .fragment from rfl, cp_enc c (suffix_scalar hc hr c (by simp)) _ x.fuel (by have := hc.fuel; omega)]
    dsimp only
    rw [badIf_ec, badIf_ec]
    dsimp only
    generalize ecIf _ _ = e
    exact ⟨e, by simp; omega⟩

/-- The set for queries. -/
def querySet (u : Url) : PSet := if Special u.scheme then .specialQuery else .query

theorem query_set (u : Url) : (if isSpecial u = true then isSpecialQuerySet else isQuerySet) = setOf (querySet u) := by
  unfold querySet
  unfold isSpecial
  by_cases h : Special u.scheme
  · rw [if_pos h, if_pos ((special_iff _).mpr h)]; rfl
  · rw [if_neg h, if_neg (fun hh => h ((special_iff _).mp hh))]; rfl

include ho hc in
theorem query_reads (u : Url) (w : List Nat) : ∀ (b : List Nat), (∀ c ∈ w, c ≠ 0x0A) → (b ++ w) <:+ x.input →
    Finishes x ⟨.query, { u with query := some [] }, b, w, false, false, false⟩ { u with query := some (enc8 (querySet u) (b ++ w)) } := by
  induction w with
  | nil =>
    intro b _ hr
    rw [List.append_nil] at hr ⊢
    have hl := hr.length_le
    refine ends_step fun ec => ?_
    simp only [step, Cfg.st]
    rw [at_rest List.nil_suffix, onQuery, headOf]
    simp only [ne_eq, not_true_eq_false, false_and, if_false]
    rw [if_pos (by simp)]
    have e := utf8_enc b (suffix_scalar hc hr) (querySet u) x.fuel (by have := hc.fuel; omega)
    unfold utf8PercentEncode at e
    have e2 := query_set { u with query := some [] }
    rw [show querySet { u with query := some [] } = querySet u from rfl] at e2
    rw [e2, e]
    dsimp only
    rw [if_neg (by simp)]
    exact ⟨_, by simp, by simp, rfl⟩
  | cons c w ih =>
    intro b hn hr
    have hcr : (c :: w) <:+ x.input := (List.suffix_append _ _).trans hr
    have h2 := ih (b ++ [c]) (fun d hd => hn d (by simp [hd])) (by simpa using hr)
    rw [List.append_assoc] at h2
    refine Goes.ends ?_ h2
    refine goes_step fun ec => ?_
    simp only [step, Cfg.st]
    rw [at_rest hcr, onQuery, headOf]
    simp only [ne_eq, not_true_eq_false, false_and, if_false]
    rw [if_neg (by rintro (⟨h, _⟩ | h); exacts [by simp [ho] at h, hn c (by simp) h]), badIf_ec, badIf_ec]
    dsimp only
    generalize ecIf _ _ = e
    exact ⟨e, by simp; omega⟩

/-! ### Paths -/

theorem drive_iff (m : List Nat) (p : List Nat) : Drive m p ↔ ∃ a b, p = [a, b] ∧ isAsciiAlpha a = true ∧ b ∈ m := by
  unfold Drive
  split
  · rename_i a b
    constructor
    · rintro ⟨h1, h2⟩
      refine ⟨a, b, rfl, ?_, h2⟩
      unfold Lower Verif.Spec.Infra.lower at h1
      simp [isAsciiAlpha, isAsciiUpperAlpha, isAsciiLowerAlpha]
      split at h1 <;> omega
    · rintro ⟨a', b', e, h1, h2⟩
      simp only [List.cons.injEq, and_true] at e
      obtain ⟨rfl, rfl⟩ := e
      refine ⟨?_, h2⟩
      unfold Lower Verif.Spec.Infra.lower
      simp [isAsciiAlpha, isAsciiUpperAlpha, isAsciiLowerAlpha] at h1
      split <;> omega
  · rename_i hn
    simp only [false_iff]
    rintro ⟨a, b, rfl, _⟩
    exact hn a b rfl

theorem normal_iff (p : List Nat) : isNormalizedWindowsDriveLetter p = true ↔ Drive (codes ":") p := by
  rw [drive_iff]
  unfold isNormalizedWindowsDriveLetter
  have : codes ":" = [0x3A] := by decide
  rw [this]
  split
  · simp [and_comm]
  · rename_i hn
    simp only [Bool.false_eq_true, false_iff]
    rintro ⟨a, b, rfl, _⟩
    exact hn a b rfl

theorem letter_iff (p : List Nat) : isWindowsDriveLetter p = true ↔ Drive (codes ":|") p := by
  rw [drive_iff]
  unfold isWindowsDriveLetter
  have : codes ":|" = [0x3A, 0x7C] := by decide
  rw [this]
  split
  · simp
  · rename_i hn
    simp only [Bool.false_eq_true, false_iff]
    rintro ⟨a, b, rfl, _⟩
    exact hn a b rfl

/-- Whether a scheme is `file`. -/
abbrev isFile (u : Url) : Bool := decide (u.scheme = codes "file")

theorem shorten_eq (u : Url) : shortenPath u = { u with path := parent (isFile u) u.path } := by
  unfold shortenPath parent
  rw [show lit "file" = codes "file" from rfl]
  split
  · rename_i h
    rw [if_neg (by rw [h]; simp), h]
    cases u
    simp at h ⊢
    exact h
  · simp only [normal_iff, decide_eq_true_eq]
    split
    · cases u; rfl
    · rfl

theorem push_enter (u : Url) (p : List Nat) (hp : ∀ c ∈ p, c < 0x80) (slash : Bool) :
    pushSegment u p slash = some { u with path := enter (isFile u) (!slash) u.path p } := by
  unfold pushSegment enter
  rw [doubleDot_eq p hp]
  by_cases h : Up p
  · rw [decide_eq_true (by exact h), if_pos h, shorten_eq]
    cases slash <;> rfl
  · rw [decide_eq_false (by exact h), if_neg h]
    dsimp only
    by_cases h2 : Here p
    · rw [if_pos h2, if_pos ((singleDot_iff p).mpr h2)]
      cases slash <;> rfl
    · rw [if_neg h2, if_neg (fun hh => h2 ((singleDot_iff p).mp hh))]
      unfold child
      simp only [letter_iff, decide_eq_true_eq]
      rw [show lit "file" = codes "file" from rfl]
      congr 3
      split
      · rename_i hd
        obtain ⟨a, b, rfl, _⟩ := (drive_iff _ _).mp hd.2.2
        rfl
      · rfl

theorem enc_ascii {s : List Nat} (h : ∀ c ∈ s, IsScalar c) : ∀ c ∈ enc8 .path s, c < 0x80 := by
  intro c hc
  have := (enc8_clean .path (by decide) s h c hc).2
  omega

/-- The separators of segments. -/
abbrev slashes (u : Url) : Nat → Bool := fun c => decide (c = 0x2F ∨ (Special u.scheme ∧ c = 0x5C))

theorem slashes_eq (u : Url) (c : Nat) : (c == 0x2F || (isSpecial u && c == 0x5C)) = slashes u c := by
  have := special_iff u.scheme
  unfold slashes isSpecial
  rw [Bool.eq_iff_iff]
  simp [this]

/-- A piece put in front of the first one. -/
def glue (b : List Nat) : List (List Nat) → List (List Nat)
  | [] => [b]
  | p :: ps => (b ++ p) :: ps

theorem pieces_cons (sep : Nat → Bool) (s : List Nat) : ∃ p ps, pieces sep s = p :: ps := by
  induction s with
  | nil => exact ⟨_, _, rfl⟩
  | cons c s ih =>
    rw [pieces]
    split
    · exact ⟨_, _, rfl⟩
    · obtain ⟨p, ps, h⟩ := ih
      rw [h]
      exact ⟨_, _, rfl⟩

include ho hc in
theorem path_reads (u : Url) (w : List Nat) : ∀ (b : List Nat) (ps : List (List Nat)), (∀ c ∈ w, c ≠ 0x0A) → (∀ c ∈ b, IsScalar c) → w <:+ x.input →
    Finishes x ⟨.path, { u with path := ps }, enc8 .path b, w, false, false, false⟩
      { u with path := walk (isFile u) ps ((glue b (pieces (slashes u) w)).map (enc8 .path)) } := by
  induction w with
  | nil =>
    intro b ps _ hb _
    have := path_ends (x := x) (a := false) (t := false) (push_enter { u with path := ps } (enc8 .path b) (enc_ascii hb) false)
    simpa [pieces, glue, walk] using this
  | cons c w ih =>
    intro b ps hn hb hr
    have hw : w <:+ x.input := (List.suffix_cons c _).trans hr
    have hn' : ∀ d ∈ w, d ≠ 0x0A := fun d hd => hn d (by simp [hd])
    obtain ⟨q, qs, hq⟩ := pieces_cons (slashes u) w
    rw [pieces]
    by_cases hs : slashes u c = true
    · rw [if_pos hs]
      have h2 := ih [] (enter (isFile u) false ps (enc8 .path b)) hn' (by simp) hw
      rw [hq] at h2 ⊢
      simp only [glue, List.nil_append, List.map_cons, List.append_nil, walk] at h2 ⊢
      refine Goes.ends ?_ h2
      refine goes_step fun ec => ?_
      simp only [step, Cfg.st]
      rw [at_rest hr, onPath, headOf]
      dsimp only
      rw [slashes_eq]
      rw [show slashes { u with path := ps } c = true from hs]
      have hne : c ≠ 0x3F ∧ c ≠ 0x23 := by
        simp only [slashes, decide_eq_true_eq] at hs
        rcases hs with rfl | ⟨_, rfl⟩ <;> decide
      rw [if_pos (by simp), badIf_ec]
      dsimp only
      rw [push_enter _ _ (enc_ascii hb)]
      dsimp only
      rw [if_neg hne.1, if_neg hne.2]
      generalize ecIf _ _ = e
      exact ⟨e, by simp [enc8]; omega⟩
    · rw [if_neg hs]
      have h2 := ih (b ++ [c]) ps hn' (by
        intro d hd
        rcases List.mem_append.mp hd with hd | hd
        · exact hb d hd
        · obtain rfl := List.mem_singleton.mp hd
          exact suffix_scalar hc hr d (by simp)) hw
      rw [hq] at h2 ⊢
      simp only [glue, List.append_assoc, List.cons_append, List.nil_append] at h2 ⊢
      refine Goes.ends ?_ h2
      refine goes_step fun ec => ?_
      simp only [step, Cfg.st]
      rw [at_rest hr, onPath, headOf]
      dsimp only
      rw [slashes_eq]
      rw [show slashes { u with path := ps } c = false from Bool.eq_false_iff.mpr hs]
      rw [if_neg (by simp [ho, hn c (by simp)])]
      rw [show isPathSet = setOf .path from rfl, cp_enc c (suffix_scalar hc hr c (by simp)) _ x.fuel (by have := hc.fuel; omega)]
      dsimp only
      rw [badIf_ec, badIf_ec]
      dsimp only
      generalize ecIf _ _ = e
      exact ⟨e, by simp [enc8_append]; omega⟩

include ho hc in
theorem pathStart_reads (u : Url) (w : List Nat) (hn : ∀ c ∈ w, c ≠ 0x0A) (hr : w <:+ x.input) :
    Finishes x ⟨.pathStart, { u with path := [] }, [], w, false, false, false⟩ { u with path := pathOf u.scheme w } := by
  have hpe : ∀ r, glue [] (pieces (slashes u) r) = pieces (slashes u) r := by
    intro r
    obtain ⟨q, qs, hq⟩ := pieces_cons (slashes u) r
    rw [hq]; rfl
  have hne : x.override ≠ none := by rw [ho]; simp
  have go : ∀ r, r <:+ x.input → (∀ c ∈ r, c ≠ 0x0A) → Finishes x ⟨.path, { u with path := [] }, [], r, false, false, false⟩
      { u with path := walk (isFile u) [] ((pieces (slashes u) r).map (enc8 .path)) } := by
    intro r hr hn
    have := path_reads ho hc u r [] [] hn (by simp) hr
    rwa [hpe] at this
  unfold pathOf
  dsimp only
  by_cases hsp : Special u.scheme
  · have hsp' : isSpecial { u with path := [] } = true := (special_iff _).mpr hsp
    rw [if_neg (by simp [hsp])]
    cases w with
    | nil =>
      refine Goes.ends ?_ (go [] hr hn)
      refine goes_step fun ec => ?_
      simp only [step, Cfg.st]
      rw [at_rest hr, onPathStart, headOf, if_pos hsp', badIf_ec]
      dsimp only
      rw [if_pos (by simp)]
      generalize ecIf _ _ = e
      exact ⟨e, by simp⟩
    | cons c w =>
      have hw : w <:+ x.input := (List.suffix_cons c _).trans hr
      rw [unmarked]
      by_cases hs : slashes u c = true
      · rw [if_pos hs]
        refine Goes.ends ?_ (go w hw fun d hd => hn d (by simp [hd]))
        refine goes_step fun ec => ?_
        simp only [step, Cfg.st]
        rw [at_rest hr, onPathStart, headOf, if_pos hsp', badIf_ec]
        dsimp only
        rw [if_neg (by simp [slashes, hsp] at hs; simp [hs])]
        generalize ecIf _ _ = e
        exact ⟨e, by simp; omega⟩
      · rw [if_neg hs]
        refine Goes.ends ?_ (go (c :: w) hr hn)
        refine goes_step fun ec => ?_
        simp only [step, Cfg.st]
        rw [at_rest hr, onPathStart, headOf, if_pos hsp', badIf_ec]
        dsimp only
        rw [if_pos (by simp [slashes, hsp] at hs; simp [hs])]
        generalize ecIf _ _ = e
        exact ⟨e, by simp⟩
  · have hsp' : ¬ isSpecial { u with path := [] } = true := fun h => hsp ((special_iff _).mp h)
    cases w with
    | nil =>
      rw [if_pos ⟨hsp, rfl⟩]
      refine ends_step fun ec => ?_
      simp only [step, Cfg.st]
      rw [at_rest hr, onPathStart, headOf, if_neg hsp', if_neg (fun h => hne h.1), if_neg (fun h => hne h.1), if_neg (by simp)]
      exact ⟨_, rfl, by simp, rfl⟩
    | cons c w =>
      have hw : w <:+ x.input := (List.suffix_cons c _).trans hr
      rw [if_neg (by simp), unmarked]
      by_cases hs : slashes u c = true
      · rw [if_pos hs]
        refine Goes.ends ?_ (go w hw fun d hd => hn d (by simp [hd]))
        refine goes_step fun ec => ?_
        simp only [step, Cfg.st]
        rw [at_rest hr, onPathStart, headOf, if_neg hsp', if_neg (fun h => hne h.1), if_neg (fun h => hne h.1), if_pos (hn c (by simp))]
        dsimp only
        rw [if_neg (by simp [slashes, hsp] at hs; simp [hs])]
        exact ⟨ec, by simp; omega⟩
      · rw [if_neg hs]
        refine Goes.ends ?_ (go (c :: w) hr hn)
        refine goes_step fun ec => ?_
        simp only [step, Cfg.st]
        rw [at_rest hr, onPathStart, headOf, if_neg hsp', if_neg (fun h => hne h.1), if_neg (fun h => hne h.1), if_pos (hn c (by simp))]
        dsimp only
        rw [if_pos (by simp [slashes, hsp] at hs; simp [hs])]
        exact ⟨ec, by simp⟩

/-! ### Schemes -/

/-- To the end, whether a record is returned or not. -/
def Stops (x : Ctx) (c : Cfg) (u : Url) : Prop := ∀ ec, ∃ (b : Bool) (s' : St) (k : Nat), s'.url = u ∧ ∀ n, run x (n + k) (c.st x ec) = .stop (b, s')

theorem goes_stops {x : Ctx} {c d : Cfg} {u : Url} (h : Goes x c d) (k : Stops x d u) : Stops x c u := by
  intro ec
  obtain ⟨ec1, k1, h1⟩ := h ec
  obtain ⟨b, s', k2, hu, h2⟩ := k ec1
  exact ⟨b, s', k2 + k1, hu, fun n => by rw [← Nat.add_assoc, h1, h2]⟩

theorem finishes_stops {x : Ctx} {c : Cfg} {u : Url} (h : Finishes x c u) : Stops x c u := by
  intro ec
  obtain ⟨s', k, hu, h⟩ := h ec
  exact ⟨true, s', k, hu, h⟩

theorem stops_fail {x : Ctx} {c : Cfg} {u : Url} (h : ∀ ec, ∃ s' : St, s'.url = u ∧ step x (c.st x ec) = .failure s') : Stops x c u := by
  intro ec
  obtain ⟨s', hu, h⟩ := h ec
  exact ⟨false, s', 1, hu, fun n => by rw [run, h]⟩

theorem stops_ret {x : Ctx} {c : Cfg} {u : Url} (h : ∀ ec, ∃ s' : St, s'.url = u ∧ step x (c.st x ec) = .ret s') : Stops x c u := by
  intro ec
  obtain ⟨s', hu, h⟩ := h ec
  exact ⟨false, s', 1, hu, fun n => by rw [run, h]⟩

theorem lower_eq (c : Nat) (h : c < 0x80) : toAsciiLowercase .c32 .c32 [c] = some [Verif.Spec.Infra.lower c] := by
  rw [lower_char c h]
  rfl

theorem alpha_iff (c : Nat) : isAsciiAlpha c = true ↔ Lower (Verif.Spec.Infra.lower c) := by
  simp [isAsciiAlpha, isAsciiUpperAlpha, isAsciiLowerAlpha, Lower, Verif.Spec.Infra.lower]
  split <;> omega

/-- The code points of a scheme behind the first. -/
def Part (c : Nat) : Prop := Lower (Verif.Spec.Infra.lower c) ∨ (0x30 ≤ c ∧ c ≤ 0x39) ∨ c ∈ codes "+-."

theorem part_iff (c : Nat) : (isAsciiAlphanumeric c || c == 0x2B || c == 0x2D || c == 0x2E) = true ↔ Part c := by
  have e : codes "+-." = [0x2B, 0x2D, 0x2E] := by decide
  rw [Part, e]
  simp [isAsciiAlphanumeric, isAsciiDigit, isAsciiAlpha, isAsciiUpperAlpha, isAsciiLowerAlpha, Lower, Verif.Spec.Infra.lower]
  split <;> omega

theorem part_small {c : Nat} (h : Part c) : c < 0x80 := by
  have e : codes "+-." = [0x2B, 0x2D, 0x2E] := by decide
  rw [Part, e] at h
  simp only [Lower, Verif.Spec.Infra.lower, List.mem_cons, List.not_mem_nil, or_false] at h
  split at h <;> omega

theorem returns_eq (u : Url) (t : List Nat) (hf : u.scheme = codes "file" → u.host ≠ none) :
    ∃ b, schemeReturns u t = some b ∧ (b = false ↔ Takes u t) := by
  have k1 := special_iff u.scheme
  have k2 := special_iff t
  unfold schemeReturns Takes includesCredentials
  rw [show lit "file" = codes "file" from rfl]
  have b1 : isSpecialScheme u.scheme = false ↔ ¬ Special u.scheme := by rw [← k1]; simp
  have b2 : isSpecialScheme t = false ↔ ¬ Special t := by rw [← k2]; simp
  simp only [k1, b1, b2, k2]
  split
  · rename_i h; exact ⟨true, rfl, by simp; intro h'; exact absurd (h'.mp h.1) h.2⟩
  split
  · rename_i h; exact ⟨true, rfl, by simp; intro h'; exact absurd (h'.mpr h.2) h.1⟩
  rename_i h1 h2
  have hiff : Special u.scheme ↔ Special t := by
    by_cases a : Special u.scheme <;> by_cases b : Special t <;> simp_all
  have hport : u.port.isSome = true ↔ u.port ≠ none := by cases u.port <;> simp
  split
  · rename_i h
    refine ⟨true, rfl, ?_⟩
    simp only [Bool.true_eq_false, false_iff]
    rintro ⟨_, h', _⟩
    refine h' ⟨h.2, ?_⟩
    rcases h.1 with h | h
    · by_cases hu : u.username = []
      · by_cases hv : u.password = []
        · rw [hu, hv] at h; exact absurd h (by decide)
        · exact Or.inr (Or.inl hv)
      · exact Or.inl hu
    · exact Or.inr (Or.inr (hport.mp h))
  rename_i h3
  have h3' : ¬ (t = codes "file" ∧ (u.username ≠ [] ∨ u.password ≠ [] ∨ u.port ≠ none)) := by
    rintro ⟨ht, h⟩
    refine h3 ⟨?_, ht⟩
    rcases h with h | h | h
    · left; simp [h]
    · left; simp [h]
    · right; exact hport.mpr h
  split
  · rename_i hsc
    split
    · rename_i hn; exact absurd hn (hf hsc)
    · rename_i k hk
      refine ⟨_, rfl, ?_⟩
      rw [hsc] at hiff
      simp only [beq_eq_false_iff_ne, ne_eq, h3', not_false_eq_true, true_and, hsc, hk, Option.some.injEq, hiff]
  · rename_i hsc
    exact ⟨false, rfl, by simp only [true_iff]; exact ⟨hiff, h3', fun h => hsc h.1⟩⟩

theorem renamed_eq (u : Url) (t : List Nat) : (if ({ u with scheme := t } : Url).port.isSome = true ∧ ({ u with scheme := t } : Url).port = defaultPort t then
    { ({ u with scheme := t } : Url) with port := none } else { u with scheme := t }) = renamed u t := by
  unfold renamed
  dsimp only
  cases hp : u.port with
  | none =>
    simp only [Option.isSome_none, Bool.false_eq_true, false_and, ite_self]
  | some p =>
    have := default_iff t p
    by_cases h : (t, some p) ∈ specials
    · rw [if_pos h, if_pos ⟨rfl, (this.mpr h).symm⟩]
    · rw [if_neg h, if_neg (fun hh => h (this.mp hh.2.symm))]

include ho in
theorem scheme_reads (u : Url) (hf : u.scheme = codes "file" → u.host ≠ none) (w : List Nat) : ∀ (b r : List Nat), (∀ c ∈ w, c ≠ 0x3A) →
    (w ++ 0x3A :: r) <:+ x.input →
    ((∀ c ∈ w, Part c) ∧ Takes u (b ++ w.map Verif.Spec.Infra.lower) →
      Stops x ⟨.scheme, u, b, w ++ 0x3A :: r, false, false, false⟩ (renamed u (b ++ w.map Verif.Spec.Infra.lower))) ∧
    (¬ ((∀ c ∈ w, Part c) ∧ Takes u (b ++ w.map Verif.Spec.Infra.lower)) → Stops x ⟨.scheme, u, b, w ++ 0x3A :: r, false, false, false⟩ u) := by
  have ne : x.override ≠ none := by rw [ho]; simp
  induction w with
  | nil =>
    intro b r _ hr
    rw [List.nil_append] at hr
    simp only [List.not_mem_nil, false_implies, implies_true, true_and, List.map_nil, List.append_nil, List.nil_append]
    obtain ⟨v, hv, hv'⟩ := returns_eq u b hf
    have hnp : ¬ (isAsciiAlphanumeric 0x3A || 0x3A == 0x2B || 0x3A == 0x2D || 0x3A == 0x2E) = true := by decide
    constructor
    · intro ht
      obtain rfl := hv'.mpr ht
      refine stops_ret fun ec => ?_
      simp only [step, Cfg.st]
      rw [at_rest hr, onScheme, headOf, if_neg hnp, if_pos rfl, if_pos ne]
      dsimp only
      rw [hv]
      dsimp only
      exact ⟨_, renamed_eq u b, rfl⟩
    · intro ht
      have : v = true := by
        cases v with
        | true => rfl
        | false => exact absurd (hv'.mp rfl) ht
      subst this
      refine stops_ret fun ec => ?_
      simp only [step, Cfg.st]
      rw [at_rest hr, onScheme, headOf, if_neg hnp, if_pos rfl, if_pos ne]
      dsimp only
      rw [hv]
      exact ⟨_, rfl, rfl⟩
  | cons c w ih =>
    intro b r hn hr
    have hw : (w ++ 0x3A :: r) <:+ x.input := (List.suffix_cons c _).trans hr
    by_cases hp : Part c
    · obtain ⟨h1, h2⟩ := ih (b ++ [Verif.Spec.Infra.lower c]) r (fun d hd => hn d (by simp [hd])) hw
      have hg : Goes x ⟨.scheme, u, b, c :: w ++ 0x3A :: r, false, false, false⟩
          ⟨.scheme, u, b ++ [Verif.Spec.Infra.lower c], w ++ 0x3A :: r, false, false, false⟩ := by
        refine goes_step fun ec => ⟨ec, ?_⟩
        simp only [step, Cfg.st]
        rw [at_rest hr, List.cons_append, onScheme, headOf, if_pos ((part_iff c).mpr hp), lower_eq c (part_small hp)]
        simp
        omega
      simp only [List.append_assoc, List.cons_append, List.nil_append] at h1 h2 hg
      simp only [List.mem_cons, forall_eq_or_imp, hp, true_and, List.map_cons, List.cons_append]
      exact ⟨fun h => goes_stops hg (h1 h), fun h => goes_stops hg (h2 h)⟩
    · refine ⟨fun h => absurd (h.1 c (by simp)) hp, fun _ => ?_⟩
      refine stops_fail fun ec => ?_
      simp only [step, Cfg.st]
      rw [at_rest hr, List.cons_append, onScheme, headOf, if_neg (fun h => hp ((part_iff c).mp h)), if_neg (hn c (by simp)), if_neg ne]
      exact ⟨_, rfl, rfl⟩

include ho in
theorem protocol_reads (u : Url) (hf : u.scheme = codes "file" → u.host ≠ none) (w r : List Nat) (hn : ∀ c ∈ w, c ≠ 0x3A) (hr : (w ++ 0x3A :: r) <:+ x.input) :
    (SchemeText w ∧ Takes u (w.map Verif.Spec.Infra.lower) → Stops x ⟨.schemeStart, u, [], w ++ 0x3A :: r, false, false, false⟩ (renamed u (w.map Verif.Spec.Infra.lower))) ∧
    (¬ (SchemeText w ∧ Takes u (w.map Verif.Spec.Infra.lower)) → Stops x ⟨.schemeStart, u, [], w ++ 0x3A :: r, false, false, false⟩ u) := by
  have ne : x.override ≠ none := by rw [ho]; simp
  have fails : ∀ c q, (c :: q) <:+ x.input → ¬ Lower (Verif.Spec.Infra.lower c) → Stops x ⟨.schemeStart, u, [], c :: q, false, false, false⟩ u := by
    intro c q hq hl
    refine stops_fail fun ec => ?_
    simp only [step, Cfg.st]
    rw [at_rest hq, onSchemeStart, headOf, if_neg (fun h => hl ((alpha_iff c).mp h)), if_neg ne]
    exact ⟨_, rfl, rfl⟩
  cases w with
  | nil =>
    refine ⟨?_, fun _ => fails _ _ hr (by unfold Lower; decide)⟩
    rintro ⟨⟨a, q, e, _⟩, _⟩
    cases e
  | cons c w =>
    have hw : (w ++ 0x3A :: r) <:+ x.input := (List.suffix_cons c _).trans hr
    by_cases hl : Lower (Verif.Spec.Infra.lower c)
    · have hg : Goes x ⟨.schemeStart, u, [], c :: w ++ 0x3A :: r, false, false, false⟩
          ⟨.scheme, u, [Verif.Spec.Infra.lower c], w ++ 0x3A :: r, false, false, false⟩ := by
        refine goes_step fun ec => ⟨ec, ?_⟩
        simp only [step, Cfg.st]
        rw [at_rest hr, List.cons_append, onSchemeStart, headOf, if_pos ((alpha_iff c).mpr hl), lower_eq c (part_small (Or.inl hl))]
        simp
        omega
      obtain ⟨h1, h2⟩ := scheme_reads ho u hf w [Verif.Spec.Infra.lower c] r (fun d hd => hn d (by simp [hd])) hw
      have hst : SchemeText (c :: w) ↔ ∀ d ∈ w, Part d := by
        constructor
        · rintro ⟨a, q, e, _, h⟩
          injection e with e1 e2
          subst e2
          exact h
        · intro h
          exact ⟨c, w, rfl, hl, h⟩
      rw [hst]
      exact ⟨fun h => goes_stops hg (h1 h), fun h => goes_stops hg (h2 h)⟩
    · refine ⟨?_, fun _ => fails _ _ hr hl⟩
      rintro ⟨⟨a, q, e, h, _⟩, _⟩
      injection e with e1 e2
      subst e1
      exact absurd h hl

/-! ### Hosts -/

theorem ends_eq (u : Url) (c : Nat) (h : c ≠ 0x0A) : endsAuthority u c = true ↔ c ∈ codes "/?#" ∨ (Special u.scheme ∧ c = 0x5C) := by
  have e : codes "/?#" = [0x2F, 0x3F, 0x23] := by decide
  rw [e, ← special_iff]
  simp [endsAuthority, isSpecial, h, or_assoc]

/-- What the host parser makes of a text. -/
def HostIs (x : Ctx) (u : Url) (w : List Nat) (v : Url) : Prop :=
  ∃ h e, parseHost x.toAscii x.fuel w (!isSpecial u) none = .stop (h, e) ∧ v = if h = .null then u else { u with host := some h }

theorem needs_iff (u : Url) : includesCredentials u = true ∨ u.port.isSome = true ↔ u.username ≠ [] ∨ u.password ≠ [] ∨ u.port ≠ none := by
  have hport : u.port.isSome = true ↔ u.port ≠ none := by cases u.port <;> simp
  rw [hport]
  unfold includesCredentials
  by_cases h1 : u.username = [] <;> by_cases h2 : u.password = [] <;> simp [h1, h2]

theorem hostname_reads (ho : x.override = some .hostname) (u : Url) (hf : u.scheme ≠ codes "file") (s : List Nat) : ∀ (b : List Nat) (i : Bool),
    (∀ c ∈ s, c ≠ 0x0A) → s <:+ x.input →
    ∀ v, (if b ++ (hostPart (decide (Special u.scheme)) i s).1 = [] ∧ NeedsHost u (hostPart (decide (Special u.scheme)) i s).2 then v = u
      else HostIs x u (b ++ (hostPart (decide (Special u.scheme)) i s).1) v) →
    Stops x ⟨.hostname, u, b, s, false, i, false⟩ v := by
  have ne : x.override ≠ none := by rw [ho]; simp
  have nf : ¬ (x.override ≠ none ∧ u.scheme = lit "file") := fun h => hf h.2
  have nsp : isSpecial u = true ↔ Special u.scheme := special_iff _
  -- the text ends
  have stop : ∀ (b : List Nat) (i : Bool) (r : List Nat) v, r <:+ x.input → endsAuthority u (headOf r) = true → r.head? ≠ some 0x3A → headOf r ≠ 0x3A →
      (if b = [] ∧ NeedsHost u r then v = u else HostIs x u b v) → Stops x ⟨.hostname, u, b, r, false, i, false⟩ v := by
    intro b i r v hr he hh hh2 hv
    have st : ∀ ec, step x ((⟨.hostname, u, b, r, false, i, false⟩ : Cfg).st x ec) =
        (let s : St := { (⟨.hostname, u, b, r, false, i, false⟩ : Cfg).st x ec with pos := (x.input.length : Int) - r.length - 1 }
        if isSpecial u = true ∧ b = [] then .failure s.bad
        else if x.override ≠ none ∧ b = [] ∧ (includesCredentials u = true ∨ u.port.isSome = true) then .ret s.bad
        else hostOf x s fun s => .ret { s with state := .pathStart }) := by
      intro ec
      simp only [step, Cfg.st]
      rw [at_rest hr, onHostname]
      dsimp only
      rw [if_neg nf, if_neg (fun h => hh2 h.1)]
      dsimp only
      rw [if_pos he]
      simp only [if_pos ne]
    dsimp only at st
    by_cases hb : b = []
    · subst hb
      by_cases hs : Special u.scheme
      · rw [if_pos ⟨rfl, Or.inl hs⟩] at hv
        subst hv
        refine stops_fail fun ec => ?_
        rw [st, if_pos ⟨nsp.mpr hs, rfl⟩]
        exact ⟨_, rfl, rfl⟩
      · by_cases hc : u.username ≠ [] ∨ u.password ≠ [] ∨ u.port ≠ none
        · rw [if_pos ⟨rfl, Or.inr (Or.inr hc)⟩] at hv
          subst hv
          refine stops_ret fun ec => ?_
          rw [st, if_neg (fun h => hs (nsp.mp h.1)), if_pos ⟨ne, rfl, (needs_iff _).mpr hc⟩]
          exact ⟨_, rfl, rfl⟩
        · rw [if_neg (by rintro ⟨_, h | h | h⟩; exacts [hs h, hh h, hc h])] at hv
          obtain ⟨h, e, hp, rfl⟩ := hv
          by_cases hn : h = .null
          · rw [if_pos hn]
            refine stops_fail fun ec => ?_
            rw [st, if_neg (fun h => hs (nsp.mp h.1)), if_neg (fun h => hc ((needs_iff _).mp h.2.2)), hostOf]
            simp only [Cfg.st]
            rw [hp]
            dsimp only
            rw [if_pos hn]
            exact ⟨_, by split <;> rfl, rfl⟩
          · rw [if_neg hn]
            refine stops_ret fun ec => ?_
            rw [st, if_neg (fun h => hs (nsp.mp h.1)), if_neg (fun h => hc ((needs_iff _).mp h.2.2)), hostOf]
            simp only [Cfg.st]
            rw [hp]
            dsimp only
            rw [if_neg hn]
            exact ⟨_, by dsimp only; split <;> rfl, rfl⟩
    · rw [if_neg (fun h => hb h.1)] at hv
      obtain ⟨h, e, hp, rfl⟩ := hv
      by_cases hn : h = .null
      · rw [if_pos hn]
        refine stops_fail fun ec => ?_
        rw [st, if_neg (fun h => hb h.2), if_neg (fun h => hb h.2.1), hostOf]
        simp only [Cfg.st]
        rw [hp]
        dsimp only
        rw [if_pos hn]
        exact ⟨_, by split <;> rfl, rfl⟩
      · rw [if_neg hn]
        refine stops_ret fun ec => ?_
        rw [st, if_neg (fun h => hb h.2), if_neg (fun h => hb h.2.1), hostOf]
        simp only [Cfg.st]
        rw [hp]
        dsimp only
        rw [if_neg hn]
        exact ⟨_, by dsimp only; split <;> rfl, rfl⟩
  induction s with
  | nil =>
    intro b i _ hr v hv
    simp only [hostPart, List.append_nil] at hv
    exact stop b i [] v hr (by simp [headOf, endsAuthority]) (by simp) (by simp [headOf]) hv
  | cons c s ih =>
    intro b i hn hr v hv
    have hw : s <:+ x.input := (List.suffix_cons c _).trans hr
    have hc0 := hn c (by simp)
    by_cases hcol : c = 0x3A ∧ i = false
    · have hcond : (c = 0x3A ∧ i = false) ∨ c ∈ codes "/?#" ∨ (decide (Special u.scheme) = true ∧ c = 0x5C) := Or.inl hcol
      simp only [hostPart, if_pos hcond, List.append_nil] at hv
      obtain ⟨rfl, rfl⟩ := hcol
      by_cases hb : b = []
      · rw [if_pos ⟨hb, Or.inr (Or.inl rfl)⟩] at hv
        subst hv
        refine stops_fail fun ec => ?_
        simp only [step, Cfg.st]
        rw [at_rest hr, onHostname, headOf]
        dsimp only
        rw [if_neg nf, if_pos (by simp), if_pos hb]
        exact ⟨_, rfl, rfl⟩
      · rw [if_neg (fun h => hb h.1)] at hv
        obtain ⟨h, e, hp, rfl⟩ := hv
        by_cases hnull : h = .null
        · rw [if_pos hnull]
          refine stops_fail fun ec => ?_
          simp only [step, Cfg.st]
          rw [at_rest hr, onHostname, headOf]
          dsimp only
          rw [if_neg nf, if_pos (by simp), if_neg hb, hostOf]
          dsimp only
          rw [hp]
          dsimp only
          rw [if_pos hnull]
          exact ⟨_, by split <;> rfl, rfl⟩
        · rw [if_neg hnull]
          refine stops_ret fun ec => ?_
          simp only [step, Cfg.st]
          rw [at_rest hr, onHostname, headOf]
          dsimp only
          rw [if_neg nf, if_pos (by simp), if_neg hb, hostOf]
          dsimp only
          rw [hp]
          dsimp only
          rw [if_neg hnull, if_pos ho]
          exact ⟨_, by dsimp only; split <;> rfl, rfl⟩
    · by_cases he : endsAuthority u c = true
      · have h2 := (ends_eq u c hc0).mp he
        have hcond : (c = 0x3A ∧ i = false) ∨ c ∈ codes "/?#" ∨ (decide (Special u.scheme) = true ∧ c = 0x5C) := by
          rcases h2 with h | h
          · exact Or.inr (Or.inl h)
          · exact Or.inr (Or.inr ⟨by simp [h.1], h.2⟩)
        have h3 : c ≠ 0x3A := by intro h3; rw [h3] at he; simp [endsAuthority] at he
        simp only [hostPart, if_pos hcond, List.append_nil] at hv
        exact stop b i (c :: s) v hr he (by simpa using h3) h3 hv
      · have hcond : ¬ ((c = 0x3A ∧ i = false) ∨ c ∈ codes "/?#" ∨ (decide (Special u.scheme) = true ∧ c = 0x5C)) := by
          rintro (h | h | h)
          · exact hcol h
          · exact he ((ends_eq u c hc0).mpr (Or.inl h))
          · exact he ((ends_eq u c hc0).mpr (Or.inr ⟨of_decide_eq_true h.1, h.2⟩))
        rw [hostPart, if_neg hcond] at hv
        dsimp only at hv
        refine goes_stops ?_ (ih (b ++ [c]) (if c = 0x5B then true else if c = 0x5D then false else i) (fun d hd => hn d (by simp [hd])) hw v ?_)
        · refine goes_step fun ec => ⟨ec, ?_⟩
          simp only [step, Cfg.st]
          rw [at_rest hr, onHostname, headOf]
          dsimp only
          rw [if_neg nf, if_neg hcol, if_neg he]
          by_cases h5 : c = 0x5B
          · subst h5
            simp
            omega
          · by_cases h6 : c = 0x5D
            · subst h6
              simp
              omega
            · simp [h5, h6]
              omega
        · simpa using hv

end

end Verif.Proof.UrlSetters
