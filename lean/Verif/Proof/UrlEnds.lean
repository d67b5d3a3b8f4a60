import Verif.Model.Url
import Verif.Proof.UrlInner
/- The URL parser ends, and where undefined behaviour may come from. -/
namespace Verif.Proof.UrlEnds
open Verif.Model.Infra Verif.Model.Unicode Verif.Model.Coder Verif.Model.Legacy Verif.Model.Percent Verif.Model.Host Verif.Model.Url
open Verif.Spec Verif.Spec.Percent Verif.Spec.Host
open Verif.Proof.UrlInner
open Verif.Props.Percent

/-- How often the input is passed over from a state on. -/
def phase : State → Nat
  | .schemeStart => 2 | .scheme => 2
  | .noScheme => 1 | .specialRelativeOrAuthority => 1 | .relative => 1 | .file => 1 | .relativeSlash => 1 | .fileSlash => 1
  | .pathOrAuthority => 1 | .specialAuthoritySlashes => 1 | .specialAuthorityIgnoreSlashes => 1 | .authority => 1
  | _ => 0

/-- The order of the states that hand the same code point on. -/
def rank : State → Nat
  | .noScheme => 13 | .specialRelativeOrAuthority => 12 | .relative => 11 | .file => 10 | .relativeSlash => 9 | .fileSlash => 8
  | .pathOrAuthority => 8 | .specialAuthoritySlashes => 7 | .specialAuthorityIgnoreSlashes => 6 | .authority => 5
  | .host => 4 | .hostname => 4 | .port => 3 | .fileHost => 2 | .pathStart => 1
  | _ => 0

/-- Decreases in every iteration. -/
def mu (x : Ctx) (s : St) : Nat :=
  phase s.state * (16 * (x.input.length + 2)) + 16 * (x.input.length - s.pos).toNat + rank s.state

/-- What is known in each state. -/
def Shape (x : Ctx) (s : St) : Prop :=
  match s.state with
  | .schemeStart => s.buffer = [] ∧ (x.override ≠ none → s.url.scheme = lit "file" → s.url.host ≠ none)
  | .scheme => x.override ≠ none → s.url.scheme = lit "file" → s.url.host ≠ none
  | .noScheme => s.buffer = []
  | .pathOrAuthority => s.buffer = []
  | .file => s.buffer = []
  | .fileSlash => s.buffer = []
  | .specialAuthoritySlashes => s.buffer = []
  | .specialAuthorityIgnoreSlashes => s.buffer = []
  | .specialRelativeOrAuthority => s.buffer = [] ∧ x.base ≠ none
  | .relative => s.buffer = [] ∧ x.base ≠ none
  | .relativeSlash => s.buffer = [] ∧ x.base ≠ none
  | .authority => (s.buffer.length : Int) ≤ s.pos
  | .host => (s.buffer.length : Int) ≤ s.pos ∧ (x.override ≠ none ∧ s.url.scheme = lit "file" → s.buffer = [])
  | .hostname => (s.buffer.length : Int) ≤ s.pos ∧ (x.override ≠ none ∧ s.url.scheme = lit "file" → s.buffer = [])
  | .port => True
  | .fileHost => (s.buffer.length : Int) ≤ s.pos + 1
  | .pathStart => s.buffer = []
  | .path => ∀ c ∈ s.buffer, c < 0x80
  | .cannotBeABaseUrlPath => s.buffer = [] ∧ s.url.path ≠ []
  | .query => (s.buffer.length : Int) ≤ s.pos ∧ s.url.query ≠ none
  | .fragment => s.url.fragment ≠ none

structure TInv (x : Ctx) (s : St) : Prop where
  lo : 0 ≤ s.pos
  hi : s.pos ≤ x.input.length
  scal : ∀ c ∈ s.buffer, IsScalar c
  enc : s.enc ≠ .ISO_2022_JP
  shape : Shape x s

/-- What is known of the parser. -/
structure CInv (x : Ctx) : Prop where
  scal : ∀ c ∈ x.input, IsScalar c
  fuel : 9 * x.input.length + 20 ≤ x.fuel

/-- Where undefined behaviour comes from. -/
def Cause (x : Ctx) (s : St) : Prop :=
  ((s.state = .host ∨ s.state = .hostname ∨ s.state = .fileHost) ∧ (isSpecial s.url = true → s.buffer ≠ []) ∧
    parseHost x.toAscii x.fuel s.buffer (!isSpecial s.url) none = .ub) ∨
  (∃ h e, s.state = .fileHost ∧ parseHost x.toAscii x.fuel s.buffer (!isSpecial s.url) none = .stop (h, e) ∧ h ≠ .null ∧
    hostEq h (lit "localhost") = none) ∨
  (∃ b e p, s.enc = e ∧ e ≠ .UTF_8 ∧ s.state = .query ∧ percentEncodeAfterEncoding x.fuel e b (setOf p) false = .ub)

/-- What an iteration may do. -/
def TOk (x : Ctx) (s : St) : Step → Prop
  | .cont s' => s'.pos ≤ x.input.length ∧ (s'.pos < x.input.length →
      TInv x { s' with pos := s'.pos + 1 } ∧ mu x { s' with pos := s'.pos + 1 } < mu x s)
  | .failure _ => True
  | .ret _ => True
  | .ub => Cause x s
  | .more => False

theorem at_scalar {x : Ctx} (h : CInv x) (i : Int) : IsScalar (x.at i) := by
  unfold Ctx.at
  split
  · rename_i hi
    have : i.toNat < x.input.length := by omega
    rw [List.getD_eq_getElem?_getD, List.getElem?_eq_getElem this]
    exact h.scal _ (List.getElem_mem this)
  · unfold IsScalar; omega

theorem bad_state (s : St) : s.bad.state = s.state ∧ s.bad.url = s.url ∧ s.bad.buffer = s.buffer ∧ s.bad.pos = s.pos ∧ s.bad.enc = s.enc ∧
    s.bad.atSignSeen = s.atSignSeen ∧ s.bad.insideBrackets = s.insideBrackets ∧ s.bad.passwordTokenSeen = s.passwordTokenSeen :=
  ⟨rfl, rfl, rfl, rfl, rfl, rfl, rfl, rfl⟩

@[simp] theorem badIf_state (s : St) (b : Bool) : (s.badIf b).state = s.state := by cases b <;> rfl
@[simp] theorem badIf_url (s : St) (b : Bool) : (s.badIf b).url = s.url := by cases b <;> rfl
@[simp] theorem badIf_buffer (s : St) (b : Bool) : (s.badIf b).buffer = s.buffer := by cases b <;> rfl
@[simp] theorem badIf_pos (s : St) (b : Bool) : (s.badIf b).pos = s.pos := by cases b <;> rfl
@[simp] theorem badIf_enc (s : St) (b : Bool) : (s.badIf b).enc = s.enc := by cases b <;> rfl
@[simp] theorem badIf_seen (s : St) (b : Bool) : (s.badIf b).atSignSeen = s.atSignSeen := by cases b <;> rfl
@[simp] theorem badIf_brackets (s : St) (b : Bool) : (s.badIf b).insideBrackets = s.insideBrackets := by cases b <;> rfl
@[simp] theorem badIf_token (s : St) (b : Bool) : (s.badIf b).passwordTokenSeen = s.passwordTokenSeen := by cases b <;> rfl
@[simp] theorem bad_st (s : St) : s.bad.state = s.state := rfl
@[simp] theorem bad_url (s : St) : s.bad.url = s.url := rfl
@[simp] theorem bad_buffer (s : St) : s.bad.buffer = s.buffer := rfl
@[simp] theorem bad_pos (s : St) : s.bad.pos = s.pos := rfl
@[simp] theorem bad_enc (s : St) : s.bad.enc = s.enc := rfl
@[simp] theorem bad_seen (s : St) : s.bad.atSignSeen = s.atSignSeen := rfl
@[simp] theorem bad_brackets (s : St) : s.bad.insideBrackets = s.insideBrackets := rfl
@[simp] theorem bad_token (s : St) : s.bad.passwordTokenSeen = s.passwordTokenSeen := rfl

/-- The obligations of an iteration that goes on. -/
theorem tok_cont {x : Ctx} {s s' : St} (h1 : s'.pos ≤ x.input.length) (h0 : s'.pos < x.input.length → 0 ≤ s'.pos + 1)
    (h2 : ∀ c ∈ s'.buffer, IsScalar c) (h3 : s'.enc ≠ .ISO_2022_JP)
    (h4 : s'.pos < x.input.length → Shape x { s' with pos := s'.pos + 1 })
    (h5 : s'.pos < x.input.length → mu x { s' with pos := s'.pos + 1 } < mu x s) : TOk x s (.cont s') :=
  ⟨h1, fun h => ⟨⟨h0 h, by show s'.pos + 1 ≤ _; omega, h2, h3, h4 h⟩, h5 h⟩⟩

theorem lower1 (c : Nat) (h : c < 0x80) : ∃ l, toAsciiLowercase .c32 .c32 [c] = some l ∧ ∀ d ∈ l, d < 0x80 := by
  have : (List.range 0x80).all (fun c => match toAsciiLowercase .c32 .c32 [c] with
    | none => false
    | some l => l.all fun d => decide (d < 0x80)) = true := by decide +kernel
  have := List.all_eq_true.mp this c (List.mem_range.mpr h)
  cases hl : toAsciiLowercase .c32 .c32 [c] with
  | none => simp [hl] at this
  | some l => exact ⟨l, rfl, by simpa [hl] using this⟩

theorem alpha_lt {c : Nat} (h : isAsciiAlpha c = true) : c < 0x80 := by
  simp [isAsciiAlpha, isAsciiUpperAlpha, isAsciiLowerAlpha] at h; omega

theorem scalar_small {c : Nat} (h : c < 0x80) : IsScalar c := by unfold IsScalar; omega

/-- A bound on the pointer. -/
macro "ps" : tactic => `(tactic| (intros; (try simp only [badIf_pos, bad_pos] at *); (try dsimp only at *); omega))

/-- The measure. -/
macro "ms " h:ident : tactic => `(tactic| (intros; (try simp only [badIf_pos, bad_pos] at *); (try dsimp only at *); (simp only [mu, phase, rank, $h:ident, badIf_state, bad_st]); (try dsimp only); omega))

section
variable {x : Ctx} {s : St} (hx : CInv x) (hs : TInv x s)

include hs in
theorem schemeStart_ok (hst : s.state = .schemeStart) : TOk x s (onSchemeStart x s (x.at s.pos)) := by
  obtain ⟨lo, hi, sc, en, sh⟩ := hs
  simp only [Shape, hst] at sh
  unfold onSchemeStart
  split
  · rename_i hc
    obtain ⟨l, hl, hd⟩ := lower1 _ (alpha_lt hc)
    rw [hl]
    dsimp only
    refine tok_cont (by ps) (by ps) ?_ en (fun _ => ?_) (by ms hst)
    · simp only [sh.1, List.nil_append]; exact fun c hc => scalar_small (hd c hc)
    · simpa [Shape] using sh.2
  · split
    · refine tok_cont (by ps) (by ps) sc en (fun _ => ?_) (by ms hst)
      simpa [Shape] using sh.1
    · trivial

theorem returns_some {u : Url} {b : List Nat} (h : u.scheme = lit "file" → u.host ≠ none) : schemeReturns u b ≠ none := by
  unfold schemeReturns
  split
  · simp
  · split
    · simp
    · split
      · simp
      · split
        · rename_i hf
          have := h hf
          cases hh : u.host with
          | none => exact absurd hh this
          | some _ => simp
        · simp

theorem afterScheme_ok {s0 : St} (hst : s0.state = .scheme) (hp : s.pos = s0.pos) (lo : 0 ≤ s.pos) (hi : s.pos ≤ x.input.length)
    (en : s.enc ≠ .ISO_2022_JP) : TOk x s0 (afterScheme x s) := by
  unfold afterScheme
  dsimp only
  split
  · refine tok_cont (by ps) (by ps) (by simp) (by simpa using en) (fun _ => by simp [Shape]) (by ms hst)
  · split
    · rename_i hb
      refine tok_cont (by ps) (by ps) (by simp) en (fun _ => ?_) (by ms hst)
      refine ⟨rfl, fun h => ?_⟩
      rw [h] at hb; simp at hb
    · split
      · refine tok_cont (by ps) (by ps) (by simp) en (fun _ => by simp [Shape]) (by ms hst)
      · split
        · rename_i hl
          have := hl.1
          simp only [Ctx.left] at this
          refine tok_cont (by ps) (by ps) (by simp) en (fun _ => by simp [Shape]) (by ms hst)
        · refine tok_cont (by ps) (by ps) (by simp) en (fun _ => by simp [Shape]) (by ms hst)

include hs in
theorem scheme_ok (hst : s.state = .scheme) : TOk x s (onScheme x s (x.at s.pos)) := by
  obtain ⟨lo, hi, sc, en, sh⟩ := hs
  simp only [Shape, hst] at sh
  unfold onScheme
  split
  · rename_i hc
    have hlt : x.at s.pos < 0x80 := by
      simp [isAsciiAlphanumeric, isAsciiAlpha, isAsciiUpperAlpha, isAsciiLowerAlpha, isAsciiDigit] at hc; omega
    obtain ⟨l, hl, hd⟩ := lower1 _ hlt
    rw [hl]
    dsimp only
    refine tok_cont (by ps) (by ps) ?_ en (fun _ => ?_) (by ms hst)
    · intro c hc
      rcases List.mem_append.mp hc with hc | hc
      · exact sc c hc
      · exact scalar_small (hd c hc)
    · simpa [Shape, hst] using sh
  · split
    · split
      · rename_i ho
        have := returns_some (b := s.buffer) (sh ho)
        cases hr : schemeReturns s.url s.buffer with
        | none => exact absurd hr this
        | some b => cases b <;> trivial
      · exact afterScheme_ok hst rfl lo hi en
    · split
      · refine tok_cont (by ps) (by ps) (by simp) en (fun _ => by simp [Shape]) (by ms hst)
      · trivial

include hs in
theorem noScheme_ok (hst : s.state = .noScheme) : TOk x s (onNoScheme x s (x.at s.pos)) := by
  obtain ⟨lo, hi, sc, en, sh⟩ := hs
  simp only [Shape, hst] at sh
  unfold onNoScheme
  split
  · trivial
  · rename_i b hb
    split
    · trivial
    · split
      · refine tok_cont (by ps) (by ps) sc en (fun _ => by simp [Shape]) (by ms hst)
      · split
        · refine tok_cont (by ps) (by ps) sc en (fun _ => by simp [Shape, hb, sh]) (by ms hst)
        · refine tok_cont (by ps) (by ps) sc en (fun _ => by simp [Shape, sh]) (by ms hst)

include hs in
theorem specialRelative_ok (hst : s.state = .specialRelativeOrAuthority) :
    TOk x s (onSpecialRelativeOrAuthority x s (x.at s.pos)) := by
  obtain ⟨lo, hi, sc, en, sh⟩ := hs
  simp only [Shape, hst] at sh
  unfold onSpecialRelativeOrAuthority
  split
  · rename_i h
    have := h.2.1
    simp only [Ctx.left] at this
    refine tok_cont (by ps) (by ps) sc en (fun _ => by simp [Shape, sh]) (by ms hst)
  · refine tok_cont (by ps) (by ps) sc en (fun _ => by simp [Shape, sh]) (by ms hst)

include hs in
theorem pathOrAuthority_ok (hst : s.state = .pathOrAuthority) : TOk x s (onPathOrAuthority s (x.at s.pos)) := by
  obtain ⟨lo, hi, sc, en, sh⟩ := hs
  simp only [Shape, hst] at sh
  unfold onPathOrAuthority
  split
  · refine tok_cont (by ps) (by ps) sc en (fun _ => by simp [Shape, sh]; omega) (by ms hst)
  · refine tok_cont (by ps) (by ps) sc en (fun _ => by simp [Shape, sh]) (by ms hst)

include hs in
theorem relative_ok (hst : s.state = .relative) : TOk x s (onRelative x s (x.at s.pos)) := by
  obtain ⟨lo, hi, sc, en, sh⟩ := hs
  simp only [Shape, hst] at sh
  unfold onRelative
  cases hb : x.base with
  | none => exact absurd hb sh.2
  | some b =>
    dsimp only
    split
    · refine tok_cont (by ps) (by ps) sc en (fun _ => by simp [Shape, sh]) (by ms hst)
    · split
      · refine tok_cont (by ps) (by ps) sc en (fun _ => by simp [Shape, sh]) (by ms hst)
      · split
        · refine tok_cont (by ps) (by ps) sc en (fun _ => by simp [Shape, sh]; omega) (by ms hst)
        · split
          · refine tok_cont (by ps) (by ps) sc en (fun _ => by simp [Shape]) (by ms hst)
          · split
            · refine tok_cont (by ps) (by ps) sc en (fun _ => by simp [Shape, sh]) (by ms hst)
            · refine tok_cont (by ps) (by ps) sc en (fun _ => by simp [Shape, hst, sh]) (by ms hst)

include hs in
theorem relativeSlash_ok (hst : s.state = .relativeSlash) : TOk x s (onRelativeSlash x s (x.at s.pos)) := by
  obtain ⟨lo, hi, sc, en, sh⟩ := hs
  simp only [Shape, hst] at sh
  unfold onRelativeSlash
  split
  · refine tok_cont (by ps) (by ps) (by simpa using sc) (by simpa using en) (fun _ => by simp [Shape, sh]) (by ms hst)
  · split
    · refine tok_cont (by ps) (by ps) sc en (fun _ => by simp [Shape, sh]; omega) (by ms hst)
    · cases hb : x.base with
      | none => exact absurd hb sh.2
      | some b =>
        refine tok_cont (by ps) (by ps) sc en (fun _ => by simp [Shape, sh]) (by ms hst)

include hs in
theorem authoritySlashes_ok (hst : s.state = .specialAuthoritySlashes) : TOk x s (onSpecialAuthoritySlashes x s (x.at s.pos)) := by
  obtain ⟨lo, hi, sc, en, sh⟩ := hs
  simp only [Shape, hst] at sh
  unfold onSpecialAuthoritySlashes
  split
  · rename_i h
    have := h.2.1
    simp only [Ctx.left] at this
    refine tok_cont (by ps) (by ps) sc en (fun _ => by simp [Shape, sh]) (by ms hst)
  · refine tok_cont (by ps) (by ps) sc en (fun _ => by simp [Shape, sh]) (by ms hst)

include hs in
theorem ignoreSlashes_ok (hst : s.state = .specialAuthorityIgnoreSlashes) :
    TOk x s (onSpecialAuthorityIgnoreSlashes s (x.at s.pos)) := by
  obtain ⟨lo, hi, sc, en, sh⟩ := hs
  simp only [Shape, hst] at sh
  unfold onSpecialAuthorityIgnoreSlashes
  split
  · refine tok_cont (by ps) (by ps) sc en (fun _ => by simp [Shape, sh]; omega) (by ms hst)
  · refine tok_cont (by ps) (by ps) sc en (fun _ => by simp [Shape, hst, sh]) (by ms hst)

theorem credentials_stop (fuel : Nat) (hf : 2 ≤ fuel) : ∀ (b : List Nat) (seen : Bool) (u p : List Nat), (∀ c ∈ b, IsScalar c) →
    ∃ r, credentials fuel b seen u p = .stop r
  | [], seen, u, p, _ => ⟨_, rfl⟩
  | c :: b, seen, u, p, h => by
    have hb : ∀ c ∈ b, IsScalar c := fun x hx => h x (by simp [hx])
    rw [credentials]
    split
    · exact credentials_stop fuel hf b _ _ _ hb
    · have := cp_enc c (h c (by simp)) .userinfo fuel hf
      rw [show setOf .userinfo = isUserinfoSet from rfl] at this
      rw [this]
      dsimp only
      split
      · exact credentials_stop fuel hf b _ _ _ hb
      · exact credentials_stop fuel hf b _ _ _ hb

include hx hs in
theorem authority_ok (hst : s.state = .authority) : TOk x s (onAuthority x s (x.at s.pos)) := by
  obtain ⟨lo, hi, sc, en, sh⟩ := hs
  simp only [Shape, hst] at sh
  unfold onAuthority
  split
  · have h40 : ∀ c ∈ lit "%40", c < 0x80 := by decide
    have hb : ∀ c ∈ (if s.atSignSeen then lit "%40" ++ s.buffer else s.buffer), IsScalar c := by
      split
      · intro c hc
        rcases List.mem_append.mp hc with hc | hc
        · exact scalar_small (h40 c hc)
        · exact sc c hc
      · exact sc
    obtain ⟨⟨user, pass, seen⟩, hr⟩ := credentials_stop x.fuel (by have := hx.fuel; omega) _ s.passwordTokenSeen s.url.username
      s.url.password hb
    dsimp only
    rw [hr]
    dsimp only
    refine tok_cont (by ps) (by ps) (by simp) en (fun _ => by simp [Shape, hst]; omega) (by ms hst)
  · split
    · split
      · trivial
      · refine tok_cont (by ps) (by ps) (by simp) en (fun _ => ?_) (by ms hst)
        simp [Shape]; omega
    · refine tok_cont (by ps) (by ps) ?_ en (fun _ => by simp [Shape, hst]; omega) (by ms hst)
      intro c hc
      rcases List.mem_append.mp hc with hc | hc
      · exact sc c hc
      · obtain rfl := List.mem_singleton.mp hc; exact at_scalar hx _

/-- `hostOf` with a continuation that is fine for every host. -/
theorem hostOf_ok {s0 : St} {k : St → Step} (hx : CInv x) (hsp : isSpecial s.url = isSpecial s0.url)
    (hst : s0.state = .host ∨ s0.state = .hostname) (hbuf : s.buffer = s0.buffer) (hne : isSpecial s.url = true → s.buffer ≠ [])
    (sc : ∀ c ∈ s.buffer, IsScalar c) (hl : s.buffer.length ≤ x.input.length + 1)
    (hk : ∀ h ec, h ≠ .null → TOk x s0 (k { s with url := { s.url with host := some h }, buffer := [], ec := ec })) :
    TOk x s0 (hostOf x s k) := by
  unfold hostOf
  rcases host_ends x.toAscii s.buffer sc (!isSpecial s.url) none x.fuel (by have := hx.fuel; omega) with h | ⟨h, ec, h1, _⟩
  · rw [h]; exact Or.inl ⟨hst.elim Or.inl fun h => Or.inr (Or.inl h), by rw [← hsp, ← hbuf]; exact hne, by rw [← hsp, ← hbuf]; exact h⟩
  · rw [h1]
    dsimp only
    cases ec with
    | none =>
      rw [if_neg (show ¬ (Option.isSome (none : Ec) = true) by decide)]
      split
      · trivial
      · rename_i hn; exact hk h s.ec hn
    | some e =>
      rw [if_pos (show Option.isSome (some e : Ec) = true by rfl)]
      split
      · trivial
      · rename_i hn; exact hk h (some e) hn

include hx hs in
theorem hostname_ok (hst : s.state = .host ∨ s.state = .hostname) : TOk x s (onHostname x s (x.at s.pos)) := by
  obtain ⟨lo, hi, sc, en, sh⟩ := hs
  have sh : (s.buffer.length : Int) ≤ s.pos ∧ (x.override ≠ none ∧ s.url.scheme = lit "file" → s.buffer = []) := by
    rcases hst with h | h <;> simpa only [Shape, h] using sh
  have hphase : phase s.state = 0 ∧ rank s.state = 4 := by rcases hst with h | h <;> simp [h, phase, rank]
  unfold onHostname
  by_cases ho : x.override ≠ none ∧ s.url.scheme = lit "file"
  · rw [if_pos ho]
    dsimp only
    have hb := sh.2 ho
    have hsp : isSpecial s.url = true := by rw [isSpecial, ho.2]; decide
    simp only [hb, hsp, if_true, true_and, and_true]
    split
    · trivial
    · split
      · trivial
      · have key : ∀ b, TOk x s (.cont { s with pos := s.pos - 1, state := .fileHost, insideBrackets := b, buffer := [] ++ [x.at s.pos] }) := by
          intro b
          refine tok_cont (by ps) (by ps) ?_ en (fun _ => by simp [Shape]; omega) ?_
          · intro c hc; obtain rfl := List.mem_singleton.mp hc; exact at_scalar hx _
          · intro _; simp only [mu, hphase]; simp [phase, rank]
        split
        · split
          · first | exact key false | exact key true | exact key s.insideBrackets
          · first | exact key false | exact key true | exact key s.insideBrackets
        · split
          · first | exact key false | exact key true | exact key s.insideBrackets
          · first | exact key false | exact key true | exact key s.insideBrackets
  · rw [if_neg ho]
    dsimp only
    split
    · split
      · trivial
      · rename_i hne
        refine hostOf_ok hx rfl hst rfl (fun _ => hne) sc (by omega) fun h ec _ => ?_
        dsimp only
        split
        · trivial
        · refine tok_cont (by ps) (by ps) (by simp) en (fun _ => by simp [Shape]) ?_
          intro _; simp only [mu, hphase]; simp [phase, rank]; omega
    · split
      · split
        · trivial
        · rename_i hne
          split
          · trivial
          · refine hostOf_ok hx rfl hst rfl (fun h1 h2 => hne ⟨h1, h2⟩) sc (by dsimp only; omega) fun h ec _ => ?_
            dsimp only
            split
            · trivial
            · refine tok_cont (by ps) (by ps) (by simp) en (fun _ => by simp [Shape]) ?_
              intro _; simp only [mu, hphase]; simp [phase, rank]
      · have key : ∀ b, TOk x s (.cont { s with insideBrackets := b, buffer := s.buffer ++ [x.at s.pos] }) := by
          intro b
          refine tok_cont (by ps) (by ps) ?_ en (fun _ => ?_) ?_
          · intro c hc
            rcases List.mem_append.mp hc with hc | hc
            · exact sc c hc
            · obtain rfl := List.mem_singleton.mp hc; exact at_scalar hx _
          · have : ((s.buffer ++ [x.at s.pos]).length : Int) ≤ s.pos + 1 := by simp; omega
            rcases hst with h | h <;> simp only [Shape, h] <;> exact ⟨this, fun hh => absurd hh ho⟩
          · intro h; dsimp only at h; simp only [mu]; omega
        split
        · split
          · first | exact key false | exact key true | exact key s.insideBrackets
          · first | exact key false | exact key true | exact key s.insideBrackets
        · split
          · first | exact key false | exact key true | exact key s.insideBrackets
          · first | exact key false | exact key true | exact key s.insideBrackets

include hx hs in
theorem port_ok (hst : s.state = .port) : TOk x s (onPort x s (x.at s.pos)) := by
  obtain ⟨lo, hi, sc, en, sh⟩ := hs
  unfold onPort
  split
  · refine tok_cont (by ps) (by ps) ?_ en (fun _ => by simp [Shape, hst]) (by ms hst)
    intro c hc
    rcases List.mem_append.mp hc with hc | hc
    · exact sc c hc
    · obtain rfl := List.mem_singleton.mp hc; exact at_scalar hx _
  · split
    · split
      · trivial
      · dsimp only
        by_cases hb : s.buffer = []
        · rw [if_neg (show ¬ (s.buffer ≠ []) by simp [hb])]
          split
          · trivial
          · refine tok_cont (by ps) (by ps) sc en (fun _ => by simp [Shape, hb]) (by ms hst)
        · rw [if_pos hb]
          split
          · trivial
          · refine tok_cont (by ps) (by ps) (by simp) en (fun _ => by simp [Shape]) (by ms hst)
    · trivial

include hs in
theorem file_ok (hst : s.state = .file) : TOk x s (onFile x s (x.at s.pos)) := by
  obtain ⟨lo, hi, sc, en, sh⟩ := hs
  simp only [Shape, hst] at sh
  unfold onFile
  dsimp only
  split
  · refine tok_cont (by ps) (by ps) (by simpa using sc) (by simpa using en) (fun _ => by simp [Shape, sh]) (by ms hst)
  · split
    · refine tok_cont (by ps) (by ps) sc en (fun _ => by simp [Shape, sh]) (by ms hst)
    · split
      · split
        · refine tok_cont (by ps) (by ps) sc en (fun _ => by simp [Shape, sh]; omega) (by ms hst)
        · split
          · refine tok_cont (by ps) (by ps) sc en (fun _ => by simp [Shape]) (by ms hst)
          · split
            · split
              · refine tok_cont (by ps) (by ps) sc en (fun _ => by simp [Shape, sh]) (by ms hst)
              · refine tok_cont (by ps) (by ps) sc en (fun _ => by simp [Shape, sh]) (by ms hst)
            · refine tok_cont (by ps) (by ps) sc en (fun _ => by simp [Shape, hst, sh]) (by ms hst)
      · refine tok_cont (by ps) (by ps) sc en (fun _ => by simp [Shape, sh]) (by ms hst)

include hs in
theorem fileSlash_ok (hst : s.state = .fileSlash) : TOk x s (onFileSlash x s (x.at s.pos)) := by
  obtain ⟨lo, hi, sc, en, sh⟩ := hs
  simp only [Shape, hst] at sh
  unfold onFileSlash
  split
  · refine tok_cont (by ps) (by ps) (by simpa using sc) (by simpa using en) (fun _ => by simp [Shape, sh]; omega) (by ms hst)
  · split
    · refine tok_cont (by ps) (by ps) sc en (fun _ => by simp [Shape, sh]) (by ms hst)
    · split
      · refine tok_cont (by ps) (by ps) sc en (fun _ => by simp [Shape, sh]) (by ms hst)
      · refine tok_cont (by ps) (by ps) sc en (fun _ => by simp [Shape, sh]) (by ms hst)

include hx hs in
theorem fileHost_ok (hst : s.state = .fileHost) : TOk x s (onFileHost x s (x.at s.pos)) := by
  obtain ⟨lo, hi, sc, en, sh⟩ := hs
  simp only [Shape, hst] at sh
  unfold onFileHost
  split
  · dsimp only
    split
    · rename_i h
      refine tok_cont (by ps) (by ps) sc en (fun _ => ?_) (by ms hst)
      have hb := h.2
      simp only [Shape]
      cases hbb : s.buffer with
      | nil => simp
      | cons a t =>
        cases t with
        | nil => simp [hbb, isWindowsDriveLetter] at hb
        | cons b t =>
          cases t with
          | cons _ _ => simp [hbb, isWindowsDriveLetter] at hb
          | nil =>
            simp only [hbb, isWindowsDriveLetter, Bool.and_eq_true, Bool.or_eq_true, beq_iff_eq] at hb
            have := alpha_lt hb.1
            intro c hc
            simp only [bad_buffer, hbb, List.mem_cons, List.not_mem_nil, or_false] at hc
            omega
    · split
      · rename_i hb
        split
        · trivial
        · refine tok_cont (by ps) (by ps) sc en (fun _ => by simp [Shape, hb]) (by ms hst)
      · rename_i hne
        rcases host_ends x.toAscii s.buffer sc (!isSpecial s.url) none x.fuel (by have := hx.fuel; omega) with h | ⟨h, ec, h1, _⟩
        · rw [h]; exact Or.inl ⟨Or.inr (Or.inr hst), fun _ => hne, h⟩
        · rw [h1]
          dsimp only
          split
          · trivial
          · rename_i hn
            cases hq : hostEq h (lit "localhost") with
            | none => exact Or.inr (Or.inl ⟨h, ec, hst, h1, hn, hq⟩)
            | some b =>
              dsimp only
              split
              · trivial
              · split
                · refine tok_cont (by ps) (by ps) (by simp) en (fun _ => by simp [Shape]) (by ms hst)
                · refine tok_cont (by ps) (by ps) (by simp) en (fun _ => by simp [Shape]) (by ms hst)
  · refine tok_cont (by ps) (by ps) ?_ en (fun _ => by simp [Shape, hst]; omega) (by ms hst)
    intro c hc
    rcases List.mem_append.mp hc with hc | hc
    · exact sc c hc
    · obtain rfl := List.mem_singleton.mp hc; exact at_scalar hx _

include hs in
theorem pathStart_ok (hst : s.state = .pathStart) : TOk x s (onPathStart x s (x.at s.pos)) := by
  obtain ⟨lo, hi, sc, en, sh⟩ := hs
  simp only [Shape, hst] at sh
  unfold onPathStart
  split
  · dsimp only
    split
    · refine tok_cont (by ps) (by ps) (by simpa using sc) (by simpa using en) (fun _ => by simp [Shape, sh]) (by ms hst)
    · refine tok_cont (by ps) (by ps) (by simpa using sc) (by simpa using en) (fun _ => by simp [Shape, sh]) (by ms hst)
  · split
    · refine tok_cont (by ps) (by ps) sc en (fun _ => by simp [Shape, sh]; omega) (by ms hst)
    · split
      · refine tok_cont (by ps) (by ps) sc en (fun _ => by simp [Shape]) (by ms hst)
      · split
        · dsimp only
          split
          · refine tok_cont (by ps) (by ps) sc en (fun _ => by simp [Shape, sh]) (by ms hst)
          · refine tok_cont (by ps) (by ps) sc en (fun _ => by simp [Shape, sh]) (by ms hst)
        · refine tok_cont (by ps) (by ps) sc en (fun _ => by simp [Shape, hst, sh]) (by ms hst)

theorem ci_eq (s t : List Nat) (hs : ∀ c ∈ s, c < 0x80) (ht : ∀ c ∈ t, c < 0x80) :
    isAsciiCaseInsensitiveMatch .c32 .c32 s t = some (decide (s.map Verif.Spec.Infra.lower = t.map Verif.Spec.Infra.lower)) :=
  Verif.Props.Infra.C32_case_insensitive_match .c32 .c32 s t (fun c hc => scalar_small (hs c hc)) (fun c hc => scalar_small (ht c hc))

theorem orElse_some (a b : Bool) : orElse (some a) (some b) = some (a || b) := by cases a <;> rfl

theorem doubleDot_eq (s : List Nat) (hs : ∀ c ∈ s, c < 0x80) : isDoubleDot s =
    some (decide (s.map Verif.Spec.Infra.lower ∈ [codes "..", codes ".%2e", codes "%2e.", codes "%2e%2e"])) := by
  unfold isDoubleDot
  rw [ci_eq s (lit ".%2e") hs (by decide), ci_eq s (lit "%2e.") hs (by decide), ci_eq s (lit "%2e%2e") hs (by decide)]
  have e1 : (lit ".%2e").map Verif.Spec.Infra.lower = codes ".%2e" := by decide
  have e2 : (lit "%2e.").map Verif.Spec.Infra.lower = codes "%2e." := by decide
  have e3 : (lit "%2e%2e").map Verif.Spec.Infra.lower = codes "%2e%2e" := by decide
  have e4 : (s == lit "..") = decide (s.map Verif.Spec.Infra.lower = codes "..") := by
    have h2 : ∀ c : Nat, Verif.Spec.Infra.lower c = 0x2E ↔ c = 0x2E := by
      intro c; unfold Verif.Spec.Infra.lower; split <;> omega
    have h3 : codes ".." = [0x2E, 0x2E] := by decide
    have h4 : lit ".." = [0x2E, 0x2E] := by decide
    rw [h3, h4, Bool.eq_iff_iff, beq_iff_eq, decide_eq_true_eq]
    match s with
    | [] => simp
    | [a] => simp
    | [a, b] => simp [h2]
    | a :: b :: c :: r => simp
  rw [e1, e2, e3, e4]
  simp only [List.mem_cons, List.not_mem_nil, or_false]
  simp only [orElse_some, Bool.decide_or]

theorem doubleDot_some (s : List Nat) (hs : ∀ c ∈ s, c < 0x80) : ∃ b, isDoubleDot s = some b := ⟨_, doubleDot_eq s hs⟩

theorem push_some (u : Url) (s : List Nat) (hs : ∀ c ∈ s, c < 0x80) (slash : Bool) : ∃ v, pushSegment u s slash = some v := by
  obtain ⟨b, hb⟩ := doubleDot_some s hs
  unfold pushSegment
  rw [hb]
  cases b
  · dsimp only
    split <;> exact ⟨_, rfl⟩
  · exact ⟨_, rfl⟩

include hx hs in
theorem path_ok (hst : s.state = .path) : TOk x s (onPath x s (x.at s.pos)) := by
  obtain ⟨lo, hi, sc, en, sh⟩ := hs
  simp only [Shape, hst] at sh
  unfold onPath
  dsimp only
  split
  · simp only [badIf_url, badIf_buffer]
    obtain ⟨v, hv⟩ := push_some s.url s.buffer sh (x.at s.pos == 0x2F || (isSpecial s.url && x.at s.pos == 0x5C))
    rw [hv]
    dsimp only
    split
    · refine tok_cont (by ps) (by ps) (by simp) (by simpa using en) (fun _ => by simp [Shape]; omega) (by ms hst)
    · split
      · refine tok_cont (by ps) (by ps) (by simp) (by simpa using en) (fun _ => by simp [Shape]) (by ms hst)
      · refine tok_cont (by ps) (by ps) (by simp) (by simpa using en) (fun _ => by simp [Shape, hst]) (by ms hst)
  · have := cp_enc _ (at_scalar hx s.pos) .path x.fuel (by have := hx.fuel; omega)
    rw [show setOf .path = isPathSet from rfl] at this
    rw [this]
    dsimp only
    have hc := enc8_clean .path (by decide) [x.at s.pos] (by simpa using at_scalar hx s.pos)
    refine tok_cont (by ps) (by ps) ?_ (by simpa using en) (fun _ => ?_) (by ms hst)
    · intro c h
      simp only [badIf_buffer] at h
      rcases List.mem_append.mp h with h | h
      · exact sc c h
      · exact scalar_small (by have := hc c h; omega)
    · simp only [Shape, badIf_state, hst, badIf_buffer]
      intro c h
      rcases List.mem_append.mp h with h | h
      · exact sh c h
      · have := hc c h; omega

include hx hs in
theorem cannotBe_ok (hst : s.state = .cannotBeABaseUrlPath) : TOk x s (onCannotBeABase x s (x.at s.pos)) := by
  obtain ⟨lo, hi, sc, en, sh⟩ := hs
  simp only [Shape, hst] at sh
  unfold onCannotBeABase
  dsimp only
  split
  · refine tok_cont (by ps) (by ps) sc en (fun _ => by simp [Shape, sh]; omega) (by ms hst)
  · split
    · refine tok_cont (by ps) (by ps) sc en (fun _ => by simp [Shape]) (by ms hst)
    · split
      · have := cp_enc _ (at_scalar hx s.pos) .c0 x.fuel (by have := hx.fuel; omega)
        rw [show setOf .c0 = isC0ControlSet from rfl] at this
        rw [this]
        dsimp only
        split
        · rename_i h; simp only [badIf_url] at h; exact absurd h sh.2
        · refine tok_cont (by ps) (by ps) (by simpa using sc) (by simpa using en) (fun _ => ?_) (by ms hst)
          simp [Shape, hst, sh]
      · refine tok_cont (by ps) (by ps) (by simpa using sc) (by simpa using en) (fun _ => ?_) (by ms hst)
        simpa [Shape, hst] using sh

include hx hs in
theorem query_ok (hst : s.state = .query) : TOk x s (onQuery x s (x.at s.pos)) := by
  obtain ⟨lo, hi, sc, en, sh⟩ := hs
  simp only [Shape, hst] at sh
  unfold onQuery
  dsimp only
  obtain ⟨s1, e1, h1, h2, h3, h4, h5, h6⟩ : ∃ s1 : St, (if s.enc ≠ .UTF_8 ∧ (isSpecial s.url = false ∨ s.url.scheme = lit "ws" ∨
      s.url.scheme = lit "wss") then { s with enc := .UTF_8 } else s) = s1 ∧ s1.pos = s.pos ∧ s1.buffer = s.buffer ∧
      s1.state = s.state ∧ s1.url = s.url ∧ s1.enc ≠ .ISO_2022_JP ∧ (s1.enc = .UTF_8 ∨ s1.enc = s.enc) := by
    refine ⟨_, rfl, ?_⟩
    split
    · exact ⟨rfl, rfl, rfl, rfl, by simp, Or.inl rfl⟩
    · exact ⟨rfl, rfl, rfl, rfl, en, Or.inr rfl⟩
  rw [e1]
  have hst1 : s1.state = .query := h3.trans hst
  split
  · have hset : (if isSpecial s1.url = true then isSpecialQuerySet else isQuerySet) = setOf (if isSpecial s1.url = true then .specialQuery else .query) := by
      split <;> rfl
    rw [hset]
    have hlen : s1.buffer.length < x.fuel := by have := hx.fuel; rw [h2]; omega
    have hpp : ∀ p : PSet, p = (if isSpecial s1.url = true then .specialQuery else .query) → p ≠ .component ∧ p ≠ .form := by
      intro p hp; split at hp <;> subst hp <;> decide
    rcases query_enc s1.enc h5 s1.buffer _ (hpp _ rfl) x.fuel hlen with h | ⟨t, h, _⟩
    · rw [h]
      rcases h6 with h6 | h6
      · rw [h6] at h
        have := utf8_enc s1.buffer (by rw [h2]; exact sc) (if isSpecial s1.url = true then .specialQuery else .query) x.fuel hlen
        unfold utf8PercentEncode at this
        rw [this] at h; cases h
      · by_cases h8 : s.enc = .UTF_8
        · rw [h6, h8] at h
          have := utf8_enc s1.buffer (by rw [h2]; exact sc) (if isSpecial s1.url = true then .specialQuery else .query) x.fuel hlen
          unfold utf8PercentEncode at this
          rw [this] at h; cases h
        · exact Or.inr (Or.inr ⟨s1.buffer, s.enc, _, rfl, h8, hst, h6 ▸ h⟩)
    · rw [h]
      dsimp only
      cases hq : s1.url.query with
      | none => rw [h4] at hq; exact absurd hq sh.2
      | some q =>
        dsimp only
        rw [← h1] at lo hi
        split
        · refine tok_cont (by ps) (by ps) (by simp) h5 (fun _ => by simp [Shape]) ?_
          intro h; dsimp only at h; simp only [mu, hst, phase, rank, h1]; omega
        · refine tok_cont (by ps) (by ps) (by simp) h5 (fun _ => by simp [Shape, hst1]; omega) ?_
          intro h; dsimp only at h; simp only [mu, hst, hst1, phase, rank, h1]; omega
  · rw [← h1] at lo hi
    refine tok_cont (by ps) (by ps) ?_ (by simpa using h5) (fun _ => ?_) ?_
    · intro c hc
      simp only [badIf_buffer, h2] at hc
      rcases List.mem_append.mp hc with hc | hc
      · exact sc c hc
      · obtain rfl := List.mem_singleton.mp hc; exact at_scalar hx _
    · simp only [Shape, badIf_state, hst1, badIf_buffer, badIf_pos, badIf_url, h2, h1, h4]
      exact ⟨by simp; omega, sh.2⟩
    · intro h
      simp only [badIf_pos] at h
      simp only [mu, badIf_state, hst1, hst, phase, rank, badIf_pos, h1]
      omega

include hx hs in
theorem fragment_ok (hst : s.state = .fragment) : TOk x s (onFragment x s (x.at s.pos)) := by
  obtain ⟨lo, hi, sc, en, sh⟩ := hs
  simp only [Shape, hst] at sh
  unfold onFragment
  dsimp only
  split
  · have := cp_enc _ (at_scalar hx s.pos) .fragment x.fuel (by have := hx.fuel; omega)
    rw [show setOf .fragment = isFragmentSet from rfl] at this
    rw [this]
    dsimp only
    split
    · rename_i h; simp only [badIf_url] at h; exact absurd h sh
    · refine tok_cont (by ps) (by ps) (by simpa using sc) (by simpa using en) (fun _ => ?_) (by ms hst)
      simp [Shape, hst]
  · refine tok_cont (by ps) (by ps) sc en (fun _ => ?_) (by ms hst)
    simpa [Shape, hst] using sh

include hx hs in
theorem step_ok : TOk x s (step x s) := by
  unfold step
  dsimp only
  split
  · exact schemeStart_ok hs ‹_›
  · exact scheme_ok hs ‹_›
  · exact noScheme_ok hs ‹_›
  · exact specialRelative_ok hs ‹_›
  · exact pathOrAuthority_ok hs ‹_›
  · exact relative_ok hs ‹_›
  · exact relativeSlash_ok hs ‹_›
  · exact authoritySlashes_ok hs ‹_›
  · exact ignoreSlashes_ok hs ‹_›
  · exact authority_ok hx hs ‹_›
  · exact hostname_ok hx hs (Or.inl ‹_›)
  · exact hostname_ok hx hs (Or.inr ‹_›)
  · exact port_ok hx hs ‹_›
  · exact file_ok hs ‹_›
  · exact fileSlash_ok hs ‹_›
  · exact fileHost_ok hx hs ‹_›
  · exact pathStart_ok hs ‹_›
  · exact path_ok hx hs ‹_›
  · exact cannotBe_ok hx hs ‹_›
  · exact query_ok hx hs ‹_›
  · exact fragment_ok hx hs ‹_›

end

/-- The parser ends. -/
theorem run_ends {x : Ctx} (hx : CInv x) : ∀ (n : Nat) (s : St), TInv x s → mu x s < n →
    (∃ b s', run x n s = .stop (b, s')) ∨ run x n s = .ub ∧ ∃ s', Cause x s'
  | 0, s, hs, h => by omega
  | n + 1, s, hs, h => by
    have := step_ok hx hs
    rw [run]
    cases hst : step x s with
    | failure s' => exact Or.inl ⟨_, _, rfl⟩
    | ret s' => exact Or.inl ⟨_, _, rfl⟩
    | more => rw [hst] at this; exact this.elim
    | ub => rw [hst] at this; exact Or.inr ⟨rfl, s, this⟩
    | cont s' =>
      rw [hst] at this
      dsimp only
      by_cases hp : s'.pos < x.input.length
      · rw [if_pos hp]
        obtain ⟨h1, h2⟩ := this.2 hp
        exact run_ends hx n _ h1 (by omega)
      · rw [if_neg hp]; exact Or.inl ⟨_, _, rfl⟩

theorem mu_le {x : Ctx} {s : St} (h : TInv x s) : mu x s ≤ 48 * x.input.length + 100 := by
  have := h.lo
  have := h.hi
  have h1 : phase s.state ≤ 2 ∧ rank s.state ≤ 13 := by cases s.state <;> simp [phase, rank]
  have h2 : phase s.state * (16 * (x.input.length + 2)) ≤ 2 * (16 * (x.input.length + 2)) := Nat.mul_le_mul_right _ h1.1
  unfold mu
  omega

end Verif.Proof.UrlEnds
