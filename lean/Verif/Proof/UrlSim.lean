import Verif.Proof.UrlAgain
/- Two runs of the URL parser on inputs with the same end. -/
namespace Verif.Proof.UrlSim
open Verif.Model.Infra Verif.Model.Unicode Verif.Model.Coder Verif.Model.Legacy Verif.Model.Percent Verif.Model.Host Verif.Model.Url
open Verif.Spec Verif.Proof.UrlAgain

/-- The same but for position and error code. -/
def Rel (k : Int) (s t : St) : Prop :=
  t.state = s.state ∧ t.url = s.url ∧ t.buffer = s.buffer ∧ t.atSignSeen = s.atSignSeen ∧ t.insideBrackets = s.insideBrackets ∧
  t.passwordTokenSeen = s.passwordTokenSeen ∧ t.enc = s.enc ∧ t.pos = s.pos + k

/-- The states behind the scheme that do not look at the base. -/
def Behind : State → Prop
  | .schemeStart | .scheme | .noScheme | .specialRelativeOrAuthority | .relative | .relativeSlash | .specialAuthoritySlashes => False
  | _ => True

/-- How far back the parser may go. -/
def back (s : St) : Int :=
  match s.state with
  | .authority | .specialAuthorityIgnoreSlashes | .pathOrAuthority => s.buffer.length
  | _ => 0

/-- No `file` base. -/
def NoFile (b : Option Url) : Prop := ∀ u, b = some u → u.scheme ≠ lit "file"

/-- What holds from position `m` on. -/
structure Past (m : Int) (nf : Prop) (s : St) : Prop where
  lo : m ≤ s.pos - back s
  st : Behind s.state
  file : s.state = .file ∨ s.state = .fileSlash → nf

/-- Two iterations. -/
def Both (m k : Int) (nf : Prop) : Step → Step → Prop
  | .cont s, .cont t => Rel k s t ∧ Past m nf { s with pos := s.pos + 1 }
  | .failure _, .failure _ => True
  | .ret _, .ret _ => True
  | .ub, .ub => True
  | .more, .more => True
  | _, _ => False

theorem both_cont {m k : Int} {nf : Prop} {s t : St} (h : Rel k s t) (h1 : m ≤ s.pos + 1 - back s) (h2 : Behind s.state)
    (h3 : s.state = .file ∨ s.state = .fileSlash → nf) : Both m k nf (.cont s) (.cont t) :=
  ⟨h, ⟨h1, h2, h3⟩⟩

section
variable {w xi yi : List Nat} (hx : w <:+ xi) (hy : w <:+ yi) (xb yb : Option Url) (A : List Nat → Ec → List Nat × Ec) (F : Nat)

/-- The two parsers. -/
abbrev cx (xi : List Nat) (xb : Option Url) (A : List Nat → Ec → List Nat × Ec) (F : Nat) : Ctx := ⟨xi, xb, none, A, F⟩

include hx hy in
theorem at_same {i : Int} (h : (xi.length : Int) - w.length ≤ i) :
    (cx yi yb A F).at (i + (yi.length - xi.length)) = (cx xi xb A F).at i := by
  obtain ⟨a, rfl⟩ := hx
  obtain ⟨b, rfl⟩ := hy
  unfold Ctx.at
  simp only [List.length_append] at h ⊢
  by_cases hi : i < a.length + w.length
  · rw [if_pos (by omega), if_pos (by omega)]
    have e1 : (i + ((↑(b.length + w.length) : Int) - ↑(a.length + w.length))).toNat = b.length + (i.toNat - a.length) := by omega
    have e2 : i.toNat = a.length + (i.toNat - a.length) := by omega
    rw [e1]
    conv_rhs => rw [e2]
    simp only [List.getD_eq_getElem?_getD]
    rw [List.getElem?_append_right (by omega), List.getElem?_append_right (by omega)]
    congr 2
    omega
  · rw [if_neg (by omega), if_neg (by omega)]

/-- The other state. -/
abbrev mv (s : St) (k : Int) (e : Ec) : St := { s with pos := s.pos + k, ec := e }

/-- Both go on. -/
macro "goon" : tactic => `(tactic| (
  refine both_cont ⟨rfl, rfl, rfl, rfl, rfl, rfl, rfl, ?_⟩ ?_ trivial (by simp) <;>
    first | (simp; done) | (simp; omega) | (simp [back]; omega) | (simp [back, *]; done) | (simp [back, *]; omega)))

/-- A conditional on both sides. -/
macro "both" : tactic => `(tactic| (
  repeat' (first
    | exact trivial
    | goon
    | split)))

variable {s : St} {m k : Int} {nf : Prop} {e : Ec} {c : Nat}

theorem pathOrAuthority_both (hst : s.state = .pathOrAuthority) (hp : Past m nf s) :
    Both m k nf (onPathOrAuthority s c) (onPathOrAuthority (mv s k e) c) := by
  have hl := hp.lo
  simp only [back, hst] at hl
  unfold onPathOrAuthority mv
  both

theorem ignore_both (hst : s.state = .specialAuthorityIgnoreSlashes) (hp : Past m nf s) :
    Both m k nf (onSpecialAuthorityIgnoreSlashes s c) (onSpecialAuthorityIgnoreSlashes (mv s k e) c) := by
  have hl := hp.lo
  simp only [back, hst] at hl
  unfold onSpecialAuthorityIgnoreSlashes mv St.bad
  split
  · goon
  · refine both_cont ⟨rfl, rfl, rfl, rfl, rfl, rfl, rfl, rfl⟩ ?_ (by simp [hst, Behind]) (by simp [hst])
    simp [back, hst]; omega

theorem authority_both (hst : s.state = .authority) (hp : Past m nf s) :
    Both m k nf (onAuthority (cx xi xb A F) s c) (onAuthority (cx yi yb A F) (mv s k e) c) := by
  have hl := hp.lo
  simp only [back, hst] at hl
  unfold onAuthority mv St.bad
  dsimp only
  split
  · generalize credentials F _ _ _ _ = r
    cases r with
    | ub => exact trivial
    | more => exact trivial
    | stop r =>
      refine both_cont ⟨rfl, rfl, rfl, rfl, rfl, rfl, rfl, rfl⟩ ?_ (by simp [hst, Behind]) (by simp [hst])
      simp [back, hst]; omega
  · split
    · split
      · exact trivial
      · goon
    · refine both_cont ⟨rfl, rfl, rfl, rfl, rfl, rfl, rfl, rfl⟩ ?_ (by simp [hst, Behind]) (by simp [hst])
      simp [back, hst]; omega

theorem hostOf_both {s t : St} {f g : St → Step} (hu : t.url = s.url) (hb : t.buffer = s.buffer)
    (h : ∀ h e e', Both m k nf (f { s with url := { s.url with host := some h }, buffer := [], ec := e })
      (g { t with url := { s.url with host := some h }, buffer := [], ec := e' })) :
    Both m k nf (hostOf (cx xi xb A F) s f) (hostOf (cx yi yb A F) t g) := by
  unfold hostOf
  rw [hu, hb]
  dsimp only
  generalize parseHost A F s.buffer (!isSpecial s.url) none = r
  cases r with
  | ub => exact trivial
  | more => exact trivial
  | stop r =>
    obtain ⟨r, ec⟩ := r
    dsimp only
    by_cases hn : r = .null
    · rw [if_pos hn, if_pos hn]; exact trivial
    · rw [if_neg hn, if_neg hn]
      cases ec with
      | none =>
        have := h r s.ec t.ec
        simpa [hu] using this
      | some ec =>
        have := h r (some ec) (some ec)
        simpa [hu] using this

theorem host_both (hst : s.state = .host ∨ s.state = .hostname) (hp : Past m nf s) :
    Both m k nf (onHostname (cx xi xb A F) s c) (onHostname (cx yi yb A F) (mv s k e) c) := by
  have hl : m ≤ s.pos := by
    have := hp.lo
    rcases hst with h | h <;> simpa [back, h] using this
  unfold onHostname mv St.bad
  simp only [ne_eq, not_true_eq_false, false_and, if_false]
  split
  · split
    · exact trivial
    · refine hostOf_both _ _ _ _ rfl rfl fun h e e' => ?_
      rw [if_neg (by simp), if_neg (by simp)]
      goon
  · split
    · split
      · exact trivial
      · refine hostOf_both _ _ _ _ rfl rfl fun h e e' => ?_
        goon
    · refine both_cont ⟨?_, ?_, ?_, ?_, ?_, ?_, ?_, ?_⟩ ?_ ?_ ?_
      all_goals
        rcases hst with hst | hst <;> by_cases h1 : c = 0x5B <;> by_cases h2 : c = 0x5D <;> simp [h1, h2, back, hst, Behind] <;> omega

theorem port_both (hst : s.state = .port) (hp : Past m nf s) :
    Both m k nf (onPort (cx xi xb A F) s c) (onPort (cx yi yb A F) (mv s k e) c) := by
  have hl := hp.lo
  simp only [back, hst] at hl
  unfold onPort mv St.bad
  simp only [ne_eq, not_true_eq_false, or_false, if_false]
  split
  · refine both_cont ⟨rfl, rfl, rfl, rfl, rfl, rfl, rfl, rfl⟩ ?_ (by simp [hst, Behind]) (by simp [hst])
    simp [back, hst]; omega
  · split
    · split
      · exact trivial
      · split <;> goon
    · exact trivial

theorem file_both (hst : s.state = .file) (hp : Past m nf s) (h1 : nf → NoFile xb) (h2 : nf → NoFile yb) :
    Both m k nf (onFile (cx xi xb A F) s c) (onFile (cx yi yb A F) (mv s k e) c) := by
  have hl := hp.lo
  simp only [back, hst] at hl
  have hnf := hp.file (Or.inl hst)
  have go : ∀ (z : List Nat) (b : Option Url) (s : St), NoFile b → onFile (cx z b A F) s c =
      if c = 0x2F ∨ c = 0x5C then .cont { ({ s with url := { s.url with scheme := lit "file", host := some .empty } } : St).badIf (c == 0x5C) with state := .fileSlash }
      else .cont { s with url := { s.url with scheme := lit "file", host := some .empty }, state := .path, pos := s.pos - 1 } := by
    intro z b s hb
    unfold onFile
    dsimp only
    split
    · rfl
    · cases b with
      | none => rfl
      | some b =>
        dsimp only
        rw [if_neg (hb b rfl)]
  rw [go _ _ _ (h1 hnf), go _ _ _ (h2 hnf)]
  simp only [badIf_ec]
  split
  · refine both_cont ⟨rfl, rfl, rfl, rfl, rfl, rfl, rfl, rfl⟩ ?_ trivial (fun _ => hnf)
    simp [back]; omega
  · goon

theorem fileSlash_both (hst : s.state = .fileSlash) (hp : Past m nf s) (h1 : nf → NoFile xb) (h2 : nf → NoFile yb) :
    Both m k nf (onFileSlash (cx xi xb A F) s c) (onFileSlash (cx yi yb A F) (mv s k e) c) := by
  have hl := hp.lo
  simp only [back, hst] at hl
  have hnf := hp.file (Or.inr hst)
  have go : ∀ (z : List Nat) (b : Option Url) (s : St), NoFile b → onFileSlash (cx z b A F) s c =
      if c = 0x2F ∨ c = 0x5C then .cont { s.badIf (c == 0x5C) with state := .fileHost }
      else .cont { s with state := .path, pos := s.pos - 1 } := by
    intro z b s hb
    unfold onFileSlash
    split
    · rfl
    · cases b with
      | none => rfl
      | some b =>
        dsimp only
        rw [if_neg (hb b rfl)]
  rw [go _ _ _ (h1 hnf), go _ _ _ (h2 hnf)]
  simp only [badIf_ec]
  split <;> goon

theorem fileHost_both (hst : s.state = .fileHost) (hp : Past m nf s) :
    Both m k nf (onFileHost (cx xi xb A F) s c) (onFileHost (cx yi yb A F) (mv s k e) c) := by
  have hl := hp.lo
  simp only [back, hst] at hl
  unfold onFileHost mv St.bad
  simp only [ne_eq, not_true_eq_false, true_and, if_false]
  split
  · split
    · goon
    · split
      · goon
      · generalize parseHost A F s.buffer (!isSpecial s.url) none = r
        cases r with
        | ub => exact trivial
        | more => exact trivial
        | stop r =>
          obtain ⟨r, ec⟩ := r
          dsimp only
          by_cases hn : r = .null
          · rw [if_pos hn, if_pos hn]; exact trivial
          · rw [if_neg hn, if_neg hn]
            generalize hostEq r (lit "localhost") = q
            cases q with
            | none => exact trivial
            | some b => cases ec <;> goon
  · refine both_cont ⟨rfl, rfl, rfl, rfl, rfl, rfl, rfl, rfl⟩ ?_ (by simp [hst, Behind]) (by simp [hst])
    simp [back, hst]; omega

theorem pathStart_both (hst : s.state = .pathStart) (hp : Past m nf s) :
    Both m k nf (onPathStart (cx xi xb A F) s c) (onPathStart (cx yi yb A F) (mv s k e) c) := by
  have hl := hp.lo
  simp only [back, hst] at hl
  unfold onPathStart mv
  simp only [badIf_ec, true_and]
  split
  · split <;> goon
  · split
    · goon
    · split
      · goon
      · split
        · split <;> goon
        · refine both_cont ⟨rfl, rfl, rfl, rfl, rfl, rfl, rfl, rfl⟩ ?_ (by simp [hst, Behind]) (by simp [hst])
          simp [back, hst]; omega

theorem path_both (hst : s.state = .path) (hp : Past m nf s) :
    Both m k nf (onPath (cx xi xb A F) s c) (onPath (cx yi yb A F) (mv s k e) c) := by
  have hl := hp.lo
  simp only [back, hst] at hl
  unfold onPath mv
  simp only [badIf_ec]
  split
  · generalize pushSegment s.url s.buffer _ = r
    cases r with
    | none => exact trivial
    | some u =>
      dsimp only
      split
      · goon
      · split
        · goon
        · refine both_cont ⟨rfl, rfl, rfl, rfl, rfl, rfl, rfl, rfl⟩ ?_ (by simp [hst, Behind]) (by simp [hst])
          simp [back, hst]; omega
  · generalize utf8PercentEncodeCp F c isPathSet = r
    cases r with
    | ub => exact trivial
    | more => exact trivial
    | stop r =>
      refine both_cont ⟨rfl, rfl, rfl, rfl, rfl, rfl, rfl, rfl⟩ ?_ (by simp [hst, Behind]) (by simp [hst])
      simp [back, hst]; omega

theorem cannot_both (hst : s.state = .cannotBeABaseUrlPath) (hp : Past m nf s) :
    Both m k nf (onCannotBeABase (cx xi xb A F) s c) (onCannotBeABase (cx yi yb A F) (mv s k e) c) := by
  have hl := hp.lo
  simp only [back, hst] at hl
  unfold onCannotBeABase mv
  simp only [badIf_ec]
  split
  · goon
  · split
    · goon
    · split
      · generalize utf8PercentEncodeCp F c isC0ControlSet = r
        cases r with
        | ub => exact trivial
        | more => exact trivial
        | stop r =>
          dsimp only
          cases hpth : s.url.path with
          | nil => exact trivial
          | cons p ps =>
            refine both_cont ⟨rfl, rfl, rfl, rfl, rfl, rfl, rfl, rfl⟩ ?_ (by simp [hst, Behind]) (by simp [hst])
            simp [back, hst]; omega
      · refine both_cont ⟨rfl, rfl, rfl, rfl, rfl, rfl, rfl, rfl⟩ ?_ (by simp [hst, Behind]) (by simp [hst])
        simp [back, hst]; omega

theorem query_both (hst : s.state = .query) (hp : Past m nf s) :
    Both m k nf (onQuery (cx xi xb A F) s c) (onQuery (cx yi yb A F) (mv s k e) c) := by
  have hl := hp.lo
  simp only [back, hst] at hl
  unfold onQuery mv
  simp only [badIf_ec]
  by_cases he : s.enc ≠ .UTF_8 ∧ (isSpecial s.url = false ∨ s.url.scheme = lit "ws" ∨ s.url.scheme = lit "wss")
  all_goals
    first | rw [if_pos he, if_pos he] | rw [if_neg he, if_neg he]
    dsimp only
    split
    · generalize percentEncodeAfterEncoding F _ _ _ _ = r
      cases r with
      | ub => exact trivial
      | more => exact trivial
      | stop r =>
        dsimp only
        cases hpth : s.url.query with
        | none => exact trivial
        | some q =>
          dsimp only
          split
          · goon
          · refine both_cont ⟨rfl, rfl, rfl, rfl, rfl, rfl, rfl, rfl⟩ ?_ (by simp [hst, Behind]) (by simp [hst])
            simp [back, hst]; omega
    · refine both_cont ⟨rfl, rfl, rfl, rfl, rfl, rfl, rfl, rfl⟩ ?_ (by simp [hst, Behind]) (by simp [hst])
      simp [back, hst]; omega

theorem fragment_both (hst : s.state = .fragment) (hp : Past m nf s) :
    Both m k nf (onFragment (cx xi xb A F) s c) (onFragment (cx yi yb A F) (mv s k e) c) := by
  have hl := hp.lo
  simp only [back, hst] at hl
  unfold onFragment mv
  simp only [badIf_ec]
  split
  · generalize utf8PercentEncodeCp F c isFragmentSet = r
    cases r with
    | ub => exact trivial
    | more => exact trivial
    | stop r =>
      dsimp only
      cases hpth : s.url.fragment with
      | none => exact trivial
      | some q =>
        refine both_cont ⟨rfl, rfl, rfl, rfl, rfl, rfl, rfl, rfl⟩ ?_ (by simp [hst, Behind]) (by simp [hst])
        simp [back, hst]; omega
  · refine both_cont ⟨rfl, rfl, rfl, rfl, rfl, rfl, rfl, rfl⟩ ?_ (by simp [hst, Behind]) (by simp [hst])
    simp [back, hst]; omega

theorem back_nonneg (s : St) : 0 ≤ back s := by
  unfold back
  split <;> omega

include hx hy in
theorem step_both (hp : Past ((xi.length : Int) - w.length) nf s) (h1 : nf → NoFile xb) (h2 : nf → NoFile yb) :
    Both ((xi.length : Int) - w.length) ((yi.length : Int) - xi.length) nf (step (cx xi xb A F) s)
      (step (cx yi yb A F) (mv s ((yi.length : Int) - xi.length) e)) := by
  have hlo := hp.lo
  have := back_nonneg s
  have hat := at_same hx hy xb yb A F (i := s.pos) (by omega)
  have hb := hp.st
  unfold step
  dsimp only
  rw [hat]
  cases hst : s.state with
  | schemeStart | scheme | noScheme | specialRelativeOrAuthority | relative | relativeSlash | specialAuthoritySlashes =>
    rw [hst] at hb; exact hb.elim
  | pathOrAuthority => exact pathOrAuthority_both hst hp
  | specialAuthorityIgnoreSlashes => exact ignore_both hst hp
  | authority => exact authority_both xb yb A F hst hp
  | host => exact host_both xb yb A F (Or.inl hst) hp
  | hostname => exact host_both xb yb A F (Or.inr hst) hp
  | port => exact port_both xb yb A F hst hp
  | file => exact file_both xb yb A F hst hp h1 h2
  | fileSlash => exact fileSlash_both xb yb A F hst hp h1 h2
  | fileHost => exact fileHost_both xb yb A F hst hp
  | pathStart => exact pathStart_both xb yb A F hst hp
  | path => exact path_both xb yb A F hst hp
  | cannotBeABaseUrlPath => exact cannot_both xb yb A F hst hp
  | query => exact query_both xb yb A F hst hp
  | fragment => exact fragment_both xb yb A F hst hp

/-- The record a parser returns. -/
def result : Ends (Bool × St) → Ends (Option Url)
  | .stop (b, s) => .stop (if b then some s.url else none)
  | .ub => .ub
  | .more => .more

include hx hy in
/-- The two runs return the same. -/
theorem run_both (h1 : nf → NoFile xb) (h2 : nf → NoFile yb) : ∀ (n : Nat) (s t : St), Rel ((yi.length : Int) - xi.length) s t →
    Past ((xi.length : Int) - w.length) nf s → result (run (cx xi xb A F) n s) = result (run (cx yi yb A F) n t) := by
  intro n
  induction n with
  | zero => intro s t _ _; rfl
  | succ n ih =>
    intro s t hr hp
    obtain ⟨ts, tu, tb, ta, ti, tp, te, tpos⟩ := hr
    have e : t = mv s ((yi.length : Int) - xi.length) t.ec := by
      cases t; cases s; simp_all
    have hb := step_both hx hy xb yb A F (e := t.ec) hp h1 h2
    rw [← e] at hb
    rw [run, run]
    cases hs : step (cx xi xb A F) s with
    | ub =>
      rw [hs] at hb
      cases ht : step (cx yi yb A F) t <;> rw [ht] at hb <;> first | rfl | exact hb.elim
    | more =>
      rw [hs] at hb
      cases ht : step (cx yi yb A F) t <;> rw [ht] at hb <;> first | rfl | exact hb.elim
    | failure _ =>
      rw [hs] at hb
      cases ht : step (cx yi yb A F) t <;> rw [ht] at hb <;> first | rfl | exact hb.elim
    | ret _ =>
      rw [hs] at hb
      cases ht : step (cx yi yb A F) t <;> rw [ht] at hb <;> first | rfl | exact hb.elim
    | cont s' =>
      rw [hs] at hb
      cases ht : step (cx yi yb A F) t with
      | cont t' =>
        rw [ht] at hb
        obtain ⟨hr, hp'⟩ := hb
        have hr' := hr
        obtain ⟨ts, tu, tb, ta, ti, tp, te, tpos⟩ := hr
        dsimp only
        by_cases hlt : s'.pos < xi.length
        · rw [if_pos hlt, if_pos (by omega)]
          exact ih _ _ ⟨ts, tu, tb, ta, ti, tp, te, by show t'.pos + 1 = s'.pos + 1 + _; omega⟩ hp'
        · rw [if_neg hlt, if_neg (by omega)]
          simp [result, tu]
      | _ => rw [ht] at hb; exact hb.elim

end
end Verif.Proof.UrlSim
