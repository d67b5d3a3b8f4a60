import Verif.Proof.UrlPort
/- The URL parser on the parts of a serialized URL: what it makes of a stretch of input. -/
namespace Verif.Proof.UrlAgain
open Verif.Model.Infra Verif.Model.Unicode Verif.Model.Coder Verif.Model.Legacy Verif.Model.Percent Verif.Model.Host Verif.Model.Url
open Verif.Spec Verif.Spec.Percent Verif.Spec.Host Verif.Spec.Url
open Verif.Proof.UrlInner Verif.Proof.UrlEnds Verif.Proof.UrlValid Verif.Proof.UrlStep Verif.Proof.UrlApi Verif.Proof.UrlPort
open Verif.Props.Percent

/-- A parser in UTF-8 that has `rest` of its input left; the error code is left out. -/
structure Cfg where
  state : State
  url : Url
  buffer : List Nat := []
  rest : List Nat
  seen : Bool := false
  brackets : Bool := false
  token : Bool := false

/-- Its members. -/
def Cfg.st (x : Ctx) (c : Cfg) (ec : Ec) : St :=
  ⟨c.state, c.url, c.buffer, c.seen, c.brackets, c.token, (x.input.length : Int) - c.rest.length, ec, .UTF_8⟩

/-- From one to the other in some iterations. -/
def Goes (x : Ctx) (c d : Cfg) : Prop := ∀ ec, ∃ ec' k, ∀ n, run x (n + k) (c.st x ec) = run x n (d.st x ec')

/-- To the end, with a record. -/
def Finishes (x : Ctx) (c : Cfg) (u : Url) : Prop := ∀ ec, ∃ (s' : St) (k : Nat), s'.url = u ∧ ∀ n, run x (n + k) (c.st x ec) = .stop (true, s')

theorem Goes.refl (x : Ctx) (c : Cfg) : Goes x c c := fun ec => ⟨ec, 0, fun _ => rfl⟩

theorem Goes.trans {x : Ctx} {c d e : Cfg} (h : Goes x c d) (k : Goes x d e) : Goes x c e := by
  intro ec
  obtain ⟨ec1, k1, h1⟩ := h ec
  obtain ⟨ec2, k2, h2⟩ := k ec1
  exact ⟨ec2, k2 + k1, fun n => by rw [← Nat.add_assoc, h1, h2]⟩

theorem Goes.ends {x : Ctx} {c d : Cfg} {u : Url} (h : Goes x c d) (k : Finishes x d u) : Finishes x c u := by
  intro ec
  obtain ⟨ec1, k1, h1⟩ := h ec
  obtain ⟨s', k2, hu, h2⟩ := k ec1
  exact ⟨s', k2 + k1, hu, fun n => by rw [← Nat.add_assoc, h1, h2]⟩

/-- The code point the pointer is at. -/
def headOf : List Nat → Nat
  | [] => 0x0A
  | c :: _ => c

theorem at_rest {x : Ctx} {r : List Nat} (h : r <:+ x.input) : x.at ((x.input.length : Int) - r.length) = headOf r := by
  obtain ⟨a, ha⟩ := h
  have hl : x.input.length = a.length + r.length := by rw [← ha]; simp
  cases r with
  | nil => exact at_end (by simp)
  | cons c r =>
    have := at_mid x a c r ha.symm
    rw [show ((x.input.length : Int) - (c :: r).length) = a.length by omega, this]
    rfl

theorem at_next {x : Ctx} {c : Nat} {r : List Nat} (h : (c :: r) <:+ x.input) :
    x.at ((x.input.length : Int) - (c :: r).length + 1) = headOf r := by
  have : r <:+ x.input := (List.suffix_cons c r).trans h
  rw [← at_rest this]
  congr 1
  simp
  omega

theorem rest_le {x : Ctx} {r : List Nat} (h : r <:+ x.input) : r.length ≤ x.input.length := h.length_le

/-- One iteration. `d.rest` is what the next one sees. -/
theorem goes_step {x : Ctx} {c d : Cfg}
    (h : ∀ ec, ∃ ec', step x (c.st x ec) = .cont { d.st x ec' with pos := (x.input.length : Int) - d.rest.length - 1 }) : Goes x c d := by
  intro ec
  obtain ⟨ec', h⟩ := h ec
  refine ⟨ec', 1, fun n => ?_⟩
  rw [run, h]
  dsimp only
  rw [if_pos (by omega)]
  congr 1
  unfold Cfg.st
  simp

/-- The last iteration. -/
theorem ends_step {x : Ctx} {c : Cfg} {u : Url}
    (h : ∀ ec, ∃ s' : St, s'.url = u ∧ s'.pos = x.input.length ∧ step x (c.st x ec) = .cont s') : Finishes x c u := by
  intro ec
  obtain ⟨s', hu, hp, h⟩ := h ec
  refine ⟨s', 1, hu, fun n => ?_⟩
  rw [run, h]
  dsimp only
  rw [if_neg (by omega)]

/-- The error code behind a check. -/
def ecIf (b : Bool) (ec : Ec) : Ec := if b then some .validationError else ec

theorem badIf_ec (s : St) (b : Bool) : s.badIf b = { s with ec := ecIf b s.ec } := by cases b <;> rfl

theorem badIf_st (x : Ctx) (c : Cfg) (ec : Ec) (b : Bool) : (c.st x ec).badIf b = c.st x (if b then some .validationError else ec) := by
  cases b <;> rfl

/-- More iterations do not change the outcome. -/
theorem run_mono {x : Ctx} : ∀ (n : Nat) (s : St), run x n s ≠ .more → ∀ k, run x (n + k) s = run x n s := by
  intro n
  induction n with
  | zero => intro s h; exact absurd rfl h
  | succ n ih =>
    intro s h k
    rw [show n + 1 + k = (n + k) + 1 by omega, run, run]
    rw [run] at h
    cases hs : step x s with
    | ub => rfl
    | more => exact absurd (by rw [hs]) h
    | failure _ => rfl
    | ret _ => rfl
    | cont t =>
      rw [hs] at h
      dsimp only at h ⊢
      split
      · rename_i hl
        rw [if_pos hl] at h
        exact ih _ h k
      · rfl

/-- A stretch that is put into the buffer. -/
theorem goes_loop {x : Ctx} (f : List Nat → List Nat → Cfg) (P : Nat → Prop)
    (hstep : ∀ b c r, P c → (c :: r) <:+ x.input → Goes x (f b (c :: r)) (f (b ++ [c]) r)) :
    ∀ (w b r : List Nat), (∀ c ∈ w, P c) → (w ++ r) <:+ x.input → Goes x (f b (w ++ r)) (f (b ++ w) r) := by
  intro w
  induction w with
  | nil => intro b r _ _; simpa using Goes.refl x _
  | cons c w ih =>
    intro b r hP hs
    have h1 := hstep b c (w ++ r) (hP c (by simp)) hs
    have h2 := ih (b ++ [c]) r (fun d hd => hP d (by simp [hd])) ((List.suffix_cons c _).trans hs)
    rw [List.append_assoc] at h2
    exact h1.trans h2

section
variable {x : Ctx} (ho : x.override = none) (hb : x.base = none) (hc : CInv x)

/-! ### The scheme -/

theorem lower_self {c : Nat} (h : Lower c ∨ (0x30 ≤ c ∧ c ≤ 0x39) ∨ c ∈ codes "+-.") : toAsciiLowercase .c32 .c32 [c] = some [c] ∧
    (isAsciiAlphanumeric c || c == 0x2B || c == 0x2D || c == 0x2E) = true := by
  have e : codes "+-." = [0x2B, 0x2D, 0x2E] := by decide
  rw [e] at h
  simp only [Lower, List.mem_cons, List.not_mem_nil, or_false] at h
  have hlt : c < 0x80 := by omega
  refine ⟨?_, ?_⟩
  · rw [lower_char c hlt, if_neg (by omega)]
  · simp [isAsciiAlphanumeric, isAsciiDigit, isAsciiAlpha, isAsciiUpperAlpha, isAsciiLowerAlpha]
    omega

theorem schemeStart_goes {c : Nat} {r : List Nat} (h : Lower c) (hr : (c :: r) <:+ x.input) (u : Url) :
    Goes x ⟨.schemeStart, u, [], c :: r, false, false, false⟩ ⟨.scheme, u, [c], r, false, false, false⟩ := by
  refine goes_step fun ec => ⟨ec, ?_⟩
  simp only [step, Cfg.st]
  rw [at_rest hr]
  have ha : isAsciiAlpha c = true := by
    simp [isAsciiAlpha, isAsciiUpperAlpha, isAsciiLowerAlpha]; unfold Lower at h; omega
  rw [onSchemeStart, headOf, if_pos ha, (lower_self (Or.inl h)).1]
  simp
  omega

theorem scheme_goes (u : Url) (w b r : List Nat) (h : ∀ c ∈ w, Lower c ∨ (0x30 ≤ c ∧ c ≤ 0x39) ∨ c ∈ codes "+-.")
    (hr : (w ++ r) <:+ x.input) :
    Goes x ⟨.scheme, u, b, w ++ r, false, false, false⟩ ⟨.scheme, u, b ++ w, r, false, false, false⟩ := by
  refine goes_loop (fun b r => ⟨.scheme, u, b, r, false, false, false⟩) _ ?_ w b r h hr
  intro b c r h hr
  refine goes_step fun ec => ⟨ec, ?_⟩
  simp only [step, Cfg.st]
  rw [at_rest hr, onScheme, headOf, if_pos (lower_self h).2, (lower_self h).1]
  simp
  omega

/-- Scheme and colon. -/
theorem whole_scheme {t r : List Nat} (h : SchemeOk t) (hr : (t ++ 0x3A :: r) <:+ x.input) (u : Url) :
    Goes x ⟨.schemeStart, u, [], t ++ 0x3A :: r, false, false, false⟩ ⟨.scheme, u, t, 0x3A :: r, false, false, false⟩ := by
  obtain ⟨a, w, rfl, h1, h2⟩ := h
  exact (schemeStart_goes h1 hr u).trans (scheme_goes u w [a] (0x3A :: r) h2 ((List.suffix_cons a _).trans hr))

include ho in
/-- The colon of a `file` URL. -/
theorem colon_file {r : List Nat} (hr : (0x3A :: r) <:+ x.input) :
    Goes x ⟨.scheme, {}, codes "file", 0x3A :: r, false, false, false⟩ ⟨.file, { scheme := codes "file" }, [], r, false, false, false⟩ := by
  refine goes_step fun ec => ?_
  simp only [step, Cfg.st]
  rw [at_rest hr, onScheme, headOf, if_neg (by decide), if_pos rfl, if_neg (by simp [ho]), afterScheme]
  dsimp only
  rw [if_pos (by rfl)]
  rw [badIf_ec]
  generalize ecIf _ _ = e
  exact ⟨e, by simp; omega⟩

include ho hb in
/-- The colon of another special URL. -/
theorem colon_special {t r : List Nat} (hs : Special t) (hf : t ≠ codes "file") (hr : (0x3A :: r) <:+ x.input) :
    Goes x ⟨.scheme, {}, t, 0x3A :: r, false, false, false⟩ ⟨.specialAuthoritySlashes, { scheme := t }, [], r, false, false, false⟩ := by
  refine goes_step fun ec => ⟨ec, ?_⟩
  have hsp : isSpecialScheme t = true := (special_iff t).mpr hs
  simp only [step, Cfg.st]
  rw [at_rest hr, onScheme, headOf, if_neg (by decide), if_pos rfl, if_neg (by simp [ho]), afterScheme]
  dsimp only
  rw [if_neg (show ¬ t = lit "file" from hf), if_neg (by simp [hb]), if_pos (by exact hsp)]
  simp
  omega

include ho in
/-- The colon and a slash of a URL that is not special. -/
theorem colon_slash {t r : List Nat} (hs : ¬ Special t) (hr : (0x3A :: 0x2F :: r) <:+ x.input) (hne : r ≠ []) :
    Goes x ⟨.scheme, {}, t, 0x3A :: 0x2F :: r, false, false, false⟩ ⟨.pathOrAuthority, { scheme := t }, [], r, false, false, false⟩ := by
  refine goes_step fun ec => ⟨ec, ?_⟩
  have hsp : isSpecialScheme t = false := (special_false t).mpr hs
  have hf : ¬ t = lit "file" := fun h => hs (h ▸ file_special)
  have hlen : 0 < r.length := List.length_pos_iff.mpr hne
  simp only [step, Cfg.st]
  rw [at_rest hr, onScheme, headOf, if_neg (by decide), if_pos rfl, if_neg (by simp [ho]), afterScheme]
  dsimp only
  rw [if_neg hf, if_neg (by simp [isSpecial, hsp]), if_neg (by simp [isSpecial, hsp]), if_pos ⟨by simp [Ctx.left]; omega, by rw [at_next hr]; rfl⟩]
  simp
  omega

include ho in
/-- The colon of a URL that cannot be a base. -/
theorem colon_opaque {t r : List Nat} (hs : ¬ Special t) (hr : (0x3A :: r) <:+ x.input) (hne : r.head? = some 0x2F → r = [0x2F]) :
    Goes x ⟨.scheme, {}, t, 0x3A :: r, false, false, false⟩
      ⟨.cannotBeABaseUrlPath, { scheme := t, cannotBeBase := true, path := [[]] }, [], r, false, false, false⟩ := by
  refine goes_step fun ec => ⟨ec, ?_⟩
  have hsp : isSpecialScheme t = false := (special_false t).mpr hs
  have hf : ¬ t = lit "file" := fun h => hs (h ▸ file_special)
  simp only [step, Cfg.st]
  rw [at_rest hr, onScheme, headOf, if_neg (by decide), if_pos rfl, if_neg (by simp [ho]), afterScheme]
  dsimp only
  rw [if_neg hf, if_neg (by simp [isSpecial, hsp]), if_neg (by simp [isSpecial, hsp]), if_neg]
  · simp
    omega
  · rintro ⟨h1, h2⟩
    rw [at_next hr] at h2
    cases r with
    | nil => cases h2
    | cons c r =>
      obtain rfl : c = 0x2F := h2
      have := hne rfl
      obtain rfl : r = [] := by simpa using this
      simp [Ctx.left] at h1

/-! ### Slashes -/

theorem slashes_special {u : Url} {c : Nat} {r : List Nat} (hr : (0x2F :: 0x2F :: c :: r) <:+ x.input) (h1 : c ≠ 0x2F) (h2 : c ≠ 0x5C) :
    Goes x ⟨.specialAuthoritySlashes, u, [], 0x2F :: 0x2F :: c :: r, false, false, false⟩ ⟨.authority, u, [], c :: r, false, false, false⟩ := by
  refine Goes.trans (d := ⟨.specialAuthorityIgnoreSlashes, u, [], c :: r, false, false, false⟩) ?_ ?_
  · refine goes_step fun ec => ⟨ec, ?_⟩
    simp only [step, Cfg.st]
    rw [at_rest hr, onSpecialAuthoritySlashes, headOf, if_pos ⟨rfl, by simp [Ctx.left]; omega, by rw [at_next hr]; rfl⟩]
    simp
    omega
  · have hr' : (c :: r) <:+ x.input := ((List.suffix_cons _ _).trans (List.suffix_cons _ _)).trans hr
    refine goes_step fun ec => ⟨ec, ?_⟩
    simp only [step, Cfg.st]
    rw [at_rest hr', onSpecialAuthorityIgnoreSlashes, headOf, if_pos (by omega)]

theorem slash_authority {u : Url} {r : List Nat} (hr : (0x2F :: r) <:+ x.input) :
    Goes x ⟨.pathOrAuthority, u, [], 0x2F :: r, false, false, false⟩ ⟨.authority, u, [], r, false, false, false⟩ := by
  refine goes_step fun ec => ⟨ec, ?_⟩
  simp only [step, Cfg.st]
  rw [at_rest hr, onPathOrAuthority, headOf, if_pos rfl]
  simp
  omega

theorem no_authority {u : Url} {r : List Nat} (hr : r <:+ x.input) (h : headOf r ≠ 0x2F) :
    Goes x ⟨.pathOrAuthority, u, [], r, false, false, false⟩ ⟨.path, u, [], r, false, false, false⟩ := by
  refine goes_step fun ec => ⟨ec, ?_⟩
  simp only [step, Cfg.st]
  rw [at_rest hr, onPathOrAuthority, if_neg h]

/-! ### The authority -/

theorem enc_self {p : PSet} {c : Nat} (h : ¬ InSet p c) : enc8 p [c] = [c] := by
  have h1 : c ≤ 0x7E := by unfold InSet at h; omega
  have e : utf8 c = [c] := by unfold utf8; rw [if_pos (by omega)]
  simp [enc8, e, unit, h]

theorem enc_all {p : PSet} {s : List Nat} (h : ∀ c ∈ s, ¬ InSet p c) : enc8 p s = s := by
  induction s with
  | nil => rfl
  | cons c s ih =>
    rw [show c :: s = [c] ++ s from rfl, enc8_append, enc_self (h c (by simp)), ih fun d hd => h d (by simp [hd])]

theorem cp_self {p : PSet} {c : Nat} (h : ¬ InSet p c) (fuel : Nat) (hf : 2 ≤ fuel) : utf8PercentEncodeCp fuel c (setOf p) = .stop [c] := by
  have h1 : c ≤ 0x7E := by unfold InSet at h; omega
  rw [cp_enc c (scalar_small (by omega)) p fuel hf, enc_self h]

theorem cred_user (fuel : Nat) (hf : 2 ≤ fuel) : ∀ (w b user pass : List Nat), (∀ c ∈ w, ¬ InSet .userinfo c) →
    credentials fuel (w ++ b) false user pass = credentials fuel b false (user ++ w) pass := by
  intro w
  induction w with
  | nil => intro b user pass _; simp
  | cons c w ih =>
    intro b user pass h
    have hc := h c (by simp)
    have h3 : c ≠ 0x3A := by rintro rfl; exact hc (by decide)
    rw [List.cons_append, credentials, if_neg (by simp [h3]), show isUserinfoSet = setOf .userinfo from rfl, cp_self hc fuel hf]
    dsimp only
    rw [if_neg (by simp), ih _ _ _ fun d hd => h d (by simp [hd])]
    simp

theorem cred_pass (fuel : Nat) (hf : 2 ≤ fuel) : ∀ (w user pass : List Nat), (∀ c ∈ w, ¬ InSet .userinfo c) →
    credentials fuel w true user pass = .stop (user, pass ++ w, true) := by
  intro w
  induction w with
  | nil => intro user pass _; simp [credentials]
  | cons c w ih =>
    intro user pass h
    have hc := h c (by simp)
    rw [credentials, if_neg (by simp), show isUserinfoSet = setOf .userinfo from rfl, cp_self hc fuel hf]
    dsimp only
    rw [if_pos rfl, ih _ _ fun d hd => h d (by simp [hd])]
    simp

/-- The text of user name and password. -/
def credText (user pass : List Nat) : List Nat := user ++ (if pass ≠ [] then 0x3A :: pass else [])

theorem cred_eq (fuel : Nat) (hf : 2 ≤ fuel) (user pass : List Nat) (hu : ∀ c ∈ user, ¬ InSet .userinfo c) (hp : ∀ c ∈ pass, ¬ InSet .userinfo c) :
    ∃ tok, credentials fuel (credText user pass) false [] [] = .stop (user, pass, tok) := by
  unfold credText
  rw [cred_user fuel hf user _ _ _ hu]
  by_cases h : pass = []
  · subst h; exact ⟨false, by simp [credentials]⟩
  · refine ⟨true, ?_⟩
    rw [if_pos h, credentials, if_pos ⟨rfl, rfl⟩, cred_pass fuel hf pass _ _ hp]
    simp

theorem authority_loop (u : Url) (w b r : List Nat) (a t : Bool) (h : ∀ c ∈ w, c ≠ 0x40 ∧ endsAuthority u c = false)
    (hr : (w ++ r) <:+ x.input) : Goes x ⟨.authority, u, b, w ++ r, a, false, t⟩ ⟨.authority, u, b ++ w, r, a, false, t⟩ := by
  refine goes_loop (fun b r => ⟨.authority, u, b, r, a, false, t⟩) _ ?_ w b r h hr
  rintro b c r ⟨h1, h2⟩ hr
  refine goes_step fun ec => ⟨ec, ?_⟩
  simp only [step, Cfg.st]
  rw [at_rest hr, onAuthority, headOf, if_neg h1, if_neg (by simp [h2])]
  simp
  omega

include hc in
theorem authority_at {u : Url} {user pass r : List Nat} (h1 : u.username = []) (h2 : u.password = [])
    (hu : ∀ c ∈ user, ¬ InSet .userinfo c) (hp : ∀ c ∈ pass, ¬ InSet .userinfo c) (hr : (0x40 :: r) <:+ x.input) : ∃ t,
    Goes x ⟨.authority, u, credText user pass, 0x40 :: r, false, false, false⟩
      ⟨.authority, { u with username := user, password := pass }, [], r, true, false, t⟩ := by
  obtain ⟨tok, ht⟩ := cred_eq x.fuel (by have := hc.fuel; omega) user pass hu hp
  refine ⟨tok, goes_step fun ec => ⟨some .validationError, ?_⟩⟩
  simp only [step, Cfg.st]
  rw [at_rest hr, onAuthority, headOf, if_pos rfl]
  dsimp only
  rw [if_neg (by simp), h1, h2, ht]
  simp [St.bad]
  omega

theorem authority_end {u : Url} {w r : List Nat} {a t : Bool} (h : endsAuthority u (headOf r) = true) (hw : a = true → w ≠ [])
    (hr : (w ++ r) <:+ x.input) : Goes x ⟨.authority, u, w, r, a, false, t⟩ ⟨.host, u, [], w ++ r, a, false, t⟩ := by
  have hr' : r <:+ x.input := (List.suffix_append w r).trans hr
  refine goes_step fun ec => ⟨ec, ?_⟩
  simp only [step, Cfg.st]
  have h4 : headOf r ≠ 0x40 := by intro h4; rw [h4] at h; simp [endsAuthority] at h
  rw [at_rest hr', onAuthority, if_neg h4, if_pos h, if_neg (by rintro ⟨ha, hb⟩; exact hw ha hb)]
  simp
  omega

include ho in
theorem host_loop (u : Url) (w b r : List Nat) (a t : Bool) (h : ∀ c ∈ w, c ≠ 0x3A ∧ c ≠ 0x5B ∧ c ≠ 0x5D ∧ endsAuthority u c = false)
    (hr : (w ++ r) <:+ x.input) : Goes x ⟨.host, u, b, w ++ r, a, false, t⟩ ⟨.host, u, b ++ w, r, a, false, t⟩ := by
  refine goes_loop (fun b r => ⟨.host, u, b, r, a, false, t⟩) _ ?_ w b r h hr
  rintro b c r ⟨h1, h2, h3, h4⟩ hr
  refine goes_step fun ec => ⟨ec, ?_⟩
  simp only [step, Cfg.st]
  rw [at_rest hr, onHostname, headOf]
  simp only [ho, ne_eq, not_true_eq_false, false_and, if_false]
  rw [if_neg (by simp [h1]), if_neg (by simp [h4]), if_neg h2, if_neg h3]
  simp
  omega

include ho in
theorem host_inside (u : Url) (w b r : List Nat) (a t : Bool) (h : ∀ c ∈ w, c ≠ 0x5B ∧ c ≠ 0x5D ∧ endsAuthority u c = false)
    (hr : (w ++ r) <:+ x.input) : Goes x ⟨.host, u, b, w ++ r, a, true, t⟩ ⟨.host, u, b ++ w, r, a, true, t⟩ := by
  refine goes_loop (fun b r => ⟨.host, u, b, r, a, true, t⟩) _ ?_ w b r h hr
  rintro b c r ⟨h2, h3, h4⟩ hr
  refine goes_step fun ec => ⟨ec, ?_⟩
  simp only [step, Cfg.st]
  rw [at_rest hr, onHostname, headOf]
  simp only [ho, ne_eq, not_true_eq_false, false_and, if_false]
  rw [if_neg (by simp), if_neg (by simp [h4]), if_neg h2, if_neg h3]
  simp
  omega

include ho in
theorem host_bracket (u : Url) (w r : List Nat) (a t : Bool) (h : ∀ c ∈ w, c ≠ 0x5B ∧ c ≠ 0x5D ∧ endsAuthority u c = false)
    (hr : (0x5B :: (w ++ 0x5D :: r)) <:+ x.input) :
    Goes x ⟨.host, u, [], 0x5B :: (w ++ 0x5D :: r), a, false, t⟩ ⟨.host, u, 0x5B :: (w ++ [0x5D]), r, a, false, t⟩ := by
  have hr1 : (w ++ 0x5D :: r) <:+ x.input := (List.suffix_cons _ _).trans hr
  have hr2 : (0x5D :: r) <:+ x.input := (List.suffix_append w _).trans hr1
  refine Goes.trans (d := ⟨.host, u, [0x5B], w ++ 0x5D :: r, a, true, t⟩) ?_ ((host_inside ho u w [0x5B] (0x5D :: r) a t h hr1).trans ?_)
  · refine goes_step fun ec => ⟨ec, ?_⟩
    simp only [step, Cfg.st]
    rw [at_rest hr, onHostname, headOf]
    simp only [ho, ne_eq, not_true_eq_false, false_and, if_false]
    rw [if_neg (by simp), if_neg (by simp [endsAuthority])]
    simp
    omega
  · refine goes_step fun ec => ⟨ec, ?_⟩
    simp only [step, Cfg.st]
    rw [at_rest hr2, onHostname, headOf]
    simp only [ho, ne_eq, not_true_eq_false, false_and, if_false]
    rw [if_neg (by simp), if_neg (by simp [endsAuthority])]
    simp
    omega

include ho in
/-- A host with a port behind it. -/
theorem host_colon {u : Url} {w r : List Nat} {a t : Bool} {h : Host} (hw : w ≠ []) (hn : h ≠ .null)
    (hp : ∃ e, parseHost x.toAscii x.fuel w (!isSpecial u) none = .stop (h, e)) (hr : (0x3A :: r) <:+ x.input) :
    Goes x ⟨.host, u, w, 0x3A :: r, a, false, t⟩ ⟨.port, { u with host := some h }, [], r, a, false, t⟩ := by
  obtain ⟨e, hp⟩ := hp
  refine goes_step fun ec => ⟨if e.isSome then e else ec, ?_⟩
  simp only [step, Cfg.st]
  rw [at_rest hr, onHostname, headOf]
  simp only [ho, ne_eq, not_true_eq_false, false_and, if_false]
  rw [if_pos (by simp), if_neg hw, hostOf]
  dsimp only
  rw [hp]
  dsimp only
  rw [if_neg hn, if_neg (by simp)]
  cases e <;> simp <;> omega

include ho in
/-- A host without a port. -/
theorem host_end {u : Url} {w r : List Nat} {a t : Bool} {h : Host} (hw : isSpecial u = true → w ≠ []) (hn : h ≠ .null)
    (hp : ∃ e, parseHost x.toAscii x.fuel w (!isSpecial u) none = .stop (h, e)) (hr : r <:+ x.input) (he : endsAuthority u (headOf r) = true) :
    Goes x ⟨.host, u, w, r, a, false, t⟩ ⟨.pathStart, { u with host := some h }, [], r, a, false, t⟩ := by
  obtain ⟨e, hp⟩ := hp
  refine goes_step fun ec => ⟨if e.isSome then e else ec, ?_⟩
  have h4 : headOf r ≠ 0x3A := by intro h4; rw [h4] at he; simp [endsAuthority] at he
  simp only [step, Cfg.st]
  rw [at_rest hr, onHostname]
  simp only [ho, ne_eq, not_true_eq_false, false_and, if_false]
  rw [if_neg (by simp [h4]), if_pos he, if_neg (by rintro ⟨h1, h2⟩; exact hw h1 h2), hostOf]
  dsimp only
  rw [hp]
  dsimp only
  rw [if_neg hn]
  cases e <;> simp

theorem port_digits (u : Url) (w b r : List Nat) (a t : Bool) (h : ∀ c ∈ w, 0x30 ≤ c ∧ c ≤ 0x39)
    (hr : (w ++ r) <:+ x.input) : Goes x ⟨.port, u, b, w ++ r, a, false, t⟩ ⟨.port, u, b ++ w, r, a, false, t⟩ := by
  refine goes_loop (fun b r => ⟨.port, u, b, r, a, false, t⟩) _ ?_ w b r h hr
  rintro b c r h1 hr
  refine goes_step fun ec => ⟨ec, ?_⟩
  simp only [step, Cfg.st]
  rw [at_rest hr, onPort, headOf, if_pos (by simp [isAsciiDigit]; omega)]
  simp
  omega

include ho in
theorem port_end {u : Url} {w r : List Nat} {a t : Bool} {v : Nat} (hn : Numeral 10 w v) (hv : v < 65535) (hl : w.length ≤ 5)
    (hd : (u.scheme, some v) ∉ specials) (hr : r <:+ x.input) (he : endsAuthority u (headOf r) = true) :
    Goes x ⟨.port, u, w, r, a, false, t⟩ ⟨.pathStart, { u with port := some v }, [], r, a, false, t⟩ := by
  obtain ⟨h1, h2, h3⟩ := portOf_numeral hn
  have hpo : portOf w = v := by rw [h1]; omega
  refine goes_step fun ec => ⟨ec, ?_⟩
  have hdig : isAsciiDigit (headOf r) = false := by
    cases hh : isAsciiDigit (headOf r) with
    | false => rfl
    | true =>
      exfalso
      simp [isAsciiDigit] at hh
      simp [endsAuthority] at he
      omega
  have hdef : ¬ some v = defaultPort u.scheme := fun h => hd ((default_iff _ _).mp h.symm)
  simp only [step, Cfg.st]
  rw [at_rest hr, onPort, if_neg (by simp [hdig]), if_pos (Or.inl he)]
  dsimp only
  rw [hpo, if_neg (by rintro ⟨_, h | h⟩ <;> omega), if_pos h2, if_neg (by simp [ho]), if_neg hdef]

/-! ### `file` -/

theorem file_slashes {u : Url} {r : List Nat} (hu : u.scheme = codes "file") (hr : (0x2F :: 0x2F :: r) <:+ x.input) :
    Goes x ⟨.file, u, [], 0x2F :: 0x2F :: r, false, false, false⟩ ⟨.fileHost, { u with host := some .empty }, [], r, false, false, false⟩ := by
  have hr1 : (0x2F :: r) <:+ x.input := (List.suffix_cons _ _).trans hr
  refine Goes.trans (d := ⟨.fileSlash, { u with host := some .empty }, [], 0x2F :: r, false, false, false⟩) ?_ ?_
  · refine goes_step fun ec => ⟨ec, ?_⟩
    simp only [step, Cfg.st]
    rw [at_rest hr, onFile, headOf]
    dsimp only
    rw [if_pos (Or.inl rfl), ← show u.scheme = lit "file" from hu]
    simp [St.badIf]
    omega
  · refine goes_step fun ec => ⟨ec, ?_⟩
    simp only [step, Cfg.st]
    rw [at_rest hr1, onFileSlash, headOf, if_pos (Or.inl rfl)]
    simp [St.badIf]
    omega

theorem fileHost_loop (u : Url) (w b r : List Nat) (h : ∀ c ∈ w, c ≠ 0x0A ∧ c ≠ 0x2F ∧ c ≠ 0x5C ∧ c ≠ 0x3F ∧ c ≠ 0x23)
    (hr : (w ++ r) <:+ x.input) : Goes x ⟨.fileHost, u, b, w ++ r, false, false, false⟩ ⟨.fileHost, u, b ++ w, r, false, false, false⟩ := by
  refine goes_loop (fun b r => ⟨.fileHost, u, b, r, false, false, false⟩) _ ?_ w b r h hr
  rintro b c r h1 hr
  refine goes_step fun ec => ⟨ec, ?_⟩
  simp only [step, Cfg.st]
  rw [at_rest hr, onFileHost, headOf, if_neg (by omega)]
  simp
  omega

include ho in
theorem fileHost_empty {u : Url} {r : List Nat} (hr : (0x2F :: r) <:+ x.input) :
    Goes x ⟨.fileHost, u, [], 0x2F :: r, false, false, false⟩ ⟨.pathStart, { u with host := some .empty }, [], 0x2F :: r, false, false, false⟩ := by
  refine goes_step fun ec => ⟨ec, ?_⟩
  simp only [step, Cfg.st]
  rw [at_rest hr, onFileHost, headOf, if_pos (by simp)]
  dsimp only
  rw [if_neg (by simp [isWindowsDriveLetter]), if_pos rfl, if_neg (by simp [ho])]

include ho in
theorem fileHost_domain {u : Url} {d r : List Nat} (hd : d ≠ []) (hl : d ≠ codes "localhost") (hw : isWindowsDriveLetter d = false)
    (hp : ∃ e, parseHost x.toAscii x.fuel d (!isSpecial u) none = .stop (.domain d, e)) (hr : (0x2F :: r) <:+ x.input) :
    Goes x ⟨.fileHost, u, d, 0x2F :: r, false, false, false⟩ ⟨.pathStart, { u with host := some (.domain d) }, [], 0x2F :: r, false, false, false⟩ := by
  obtain ⟨e, hp⟩ := hp
  refine goes_step fun ec => ⟨if e.isSome then e else ec, ?_⟩
  simp only [step, Cfg.st]
  rw [at_rest hr, onFileHost, headOf, if_pos (by simp)]
  dsimp only
  rw [if_neg (by simp [hw]), if_neg hd, hp]
  dsimp only
  rw [if_neg (by simp)]
  have : hostEq (.domain d) (lit "localhost") = some false := by
    simp only [hostEq]; exact congrArg some (beq_eq_false_iff_ne.mpr hl)
  rw [this]
  dsimp only
  rw [if_neg (by simp [ho])]
  cases e <;> simp

/-! ### The path -/

theorem pathStart_slash {u : Url} {r : List Nat} {a t : Bool} (hr : (0x2F :: r) <:+ x.input) :
    Goes x ⟨.pathStart, u, [], 0x2F :: r, a, false, t⟩ ⟨.path, u, [], r, a, false, t⟩ := by
  refine goes_step fun ec => ⟨ec, ?_⟩
  simp only [step, Cfg.st]
  rw [at_rest hr, onPathStart, headOf]
  dsimp only
  by_cases h : isSpecial u = true
  · rw [if_pos h, if_neg (by simp)]
    simp [St.badIf]
    omega
  · rw [if_neg h, if_neg (by simp), if_neg (by simp), if_pos (by simp), if_neg (by simp)]
    simp
    omega

include ho in
theorem pathStart_query {u : Url} {r : List Nat} {a t : Bool} (hs : isSpecial u = false) (hr : (0x3F :: r) <:+ x.input) :
    Goes x ⟨.pathStart, u, [], 0x3F :: r, a, false, t⟩ ⟨.query, { u with query := some [] }, [], r, a, false, t⟩ := by
  refine goes_step fun ec => ⟨ec, ?_⟩
  simp only [step, Cfg.st]
  rw [at_rest hr, onPathStart, headOf]
  dsimp only
  rw [if_neg (by simp [hs]), if_pos ⟨ho, rfl⟩]
  simp
  omega

include ho in
theorem pathStart_fragment {u : Url} {r : List Nat} {a t : Bool} (hs : isSpecial u = false) (hr : (0x23 :: r) <:+ x.input) :
    Goes x ⟨.pathStart, u, [], 0x23 :: r, a, false, t⟩ ⟨.fragment, { u with fragment := some [] }, [], r, a, false, t⟩ := by
  refine goes_step fun ec => ⟨ec, ?_⟩
  simp only [step, Cfg.st]
  rw [at_rest hr, onPathStart, headOf]
  dsimp only
  rw [if_neg (by simp [hs]), if_neg (by simp), if_pos ⟨ho, rfl⟩]
  simp
  omega

theorem pathStart_ends {u : Url} {a t : Bool} (hs : isSpecial u = false) :
    Finishes x ⟨.pathStart, u, [], [], a, false, t⟩ u := by
  refine ends_step fun ec => ?_
  simp only [step, Cfg.st]
  rw [at_rest List.nil_suffix, onPathStart, headOf]
  dsimp only
  rw [if_neg (by simp [hs]), if_neg (by simp), if_neg (by simp), if_neg (by simp)]
  exact ⟨_, rfl, by simp, rfl⟩

/-- A segment that a path keeps. -/
def Keeps (u : Url) (p : List Nat) : Prop :=
  ¬ DotSegment p ∧ ∀ c ∈ p, ¬ InSet .path c ∧ c ≠ 0x2F ∧ (isSpecial u = true → c ≠ 0x5C)

include ho hc in
theorem path_loop (u : Url) (w b r : List Nat) (a t : Bool) (h : ∀ c ∈ w, ¬ InSet .path c ∧ c ≠ 0x2F ∧ (isSpecial u = true → c ≠ 0x5C))
    (hr : (w ++ r) <:+ x.input) : Goes x ⟨.path, u, b, w ++ r, a, false, t⟩ ⟨.path, u, b ++ w, r, a, false, t⟩ := by
  refine goes_loop (fun b r => ⟨.path, u, b, r, a, false, t⟩) _ ?_ w b r h hr
  rintro b c r ⟨h1, h2, h3⟩ hr
  refine goes_step fun ec => ?_
  have h0 : c ≠ 0x0A ∧ c ≠ 0x3F ∧ c ≠ 0x23 := by
    refine ⟨?_, ?_, ?_⟩ <;> (rintro rfl; exact h1 (by decide))
  simp only [step, Cfg.st]
  rw [at_rest hr, onPath, headOf]
  dsimp only
  rw [if_neg (by cases hs : isSpecial u <;> simp_all)]
  rw [show isPathSet = setOf .path from rfl, cp_self h1 x.fuel (by have := hc.fuel; omega)]
  dsimp only
  rw [badIf_ec, badIf_ec]
  dsimp only
  generalize ecIf _ _ = e
  exact ⟨e, by simp; omega⟩

theorem push_eq {u : Url} {p : List Nat} (h : Keeps u p) (hd : u.scheme = codes "file" → u.path = [] → isWindowsDriveLetter p = true → p[1]? = some 0x3A)
    (slash : Bool) : pushSegment u p slash = some { u with path := u.path ++ [p] } := by
  obtain ⟨h1, h2⟩ := h
  unfold DotSegment at h1
  simp only [List.mem_cons, List.not_mem_nil, or_false, not_or] at h1
  have hlt : ∀ c ∈ p, c < 0x80 := fun c hc => by have := (h2 c hc).1; unfold InSet at this; omega
  unfold pushSegment
  rw [doubleDot_eq p hlt, decide_eq_false (by simp; exact ⟨h1.2.2.1, h1.2.2.2.1, h1.2.2.2.2.1, h1.2.2.2.2.2⟩)]
  dsimp only
  have : ¬ isSingleDot p = true := by
    rw [singleDot_iff]; simp; exact ⟨h1.1, h1.2.1⟩
  rw [if_neg this]
  split
  · rename_i hh
    have := hd hh.1 hh.2.1 hh.2.2
    match p, this with
    | a :: b :: q, e => simp at e; subst e; rfl
  · rfl

/-- A segment ends at a slash. -/
theorem path_slash {u : Url} {p r : List Nat} {a t : Bool} {v : Url} (h : pushSegment u p true = some v) (hr : (0x2F :: r) <:+ x.input) :
    Goes x ⟨.path, u, p, 0x2F :: r, a, false, t⟩ ⟨.path, v, [], r, a, false, t⟩ := by
  refine goes_step fun ec => ?_
  simp only [step, Cfg.st]
  rw [at_rest hr, onPath, headOf]
  dsimp only
  rw [if_pos (by simp), badIf_ec]
  dsimp only
  rw [show (47 == 47 || isSpecial u && 47 == 92) = true by simp, h]
  dsimp only
  rw [if_neg (by simp), if_neg (by simp)]
  generalize ecIf _ _ = e
  exact ⟨e, by simp; omega⟩

include ho in
theorem path_query {u : Url} {p r : List Nat} {a t : Bool} {v : Url} (h : pushSegment u p false = some v) (hr : (0x3F :: r) <:+ x.input) :
    Goes x ⟨.path, u, p, 0x3F :: r, a, false, t⟩ ⟨.query, { v with query := some [] }, [], r, a, false, t⟩ := by
  refine goes_step fun ec => ?_
  simp only [step, Cfg.st]
  rw [at_rest hr, onPath, headOf]
  dsimp only
  rw [if_pos (by simp [ho]), badIf_ec]
  dsimp only
  rw [show (63 == 47 || isSpecial u && 63 == 92) = false by simp, h]
  dsimp only
  rw [if_pos rfl]
  generalize ecIf _ _ = e
  exact ⟨e, by simp; omega⟩

include ho in
theorem path_fragment {u : Url} {p r : List Nat} {a t : Bool} {v : Url} (h : pushSegment u p false = some v) (hr : (0x23 :: r) <:+ x.input) :
    Goes x ⟨.path, u, p, 0x23 :: r, a, false, t⟩ ⟨.fragment, { v with fragment := some [] }, [], r, a, false, t⟩ := by
  refine goes_step fun ec => ?_
  simp only [step, Cfg.st]
  rw [at_rest hr, onPath, headOf]
  dsimp only
  rw [if_pos (by simp [ho]), badIf_ec]
  dsimp only
  rw [show (35 == 47 || isSpecial u && 35 == 92) = false by simp, h]
  dsimp only
  rw [if_neg (by simp), if_pos rfl]
  generalize ecIf _ _ = e
  exact ⟨e, by simp; omega⟩

theorem path_ends {u : Url} {p : List Nat} {a t : Bool} {v : Url} (h : pushSegment u p false = some v) :
    Finishes x ⟨.path, u, p, [], a, false, t⟩ v := by
  refine ends_step fun ec => ?_
  simp only [step, Cfg.st]
  rw [at_rest List.nil_suffix, onPath, headOf]
  dsimp only
  rw [if_pos (by simp), badIf_ec]
  dsimp only
  rw [show (10 == 47 || isSpecial u && 10 == 92) = false by simp, h]
  dsimp only
  rw [if_neg (by simp), if_neg (by simp)]
  exact ⟨_, rfl, by simp, rfl⟩

/-! ### Paths without structure -/

include hc in
theorem opaque_loop (u : Url) (w : List Nat) (q r : List Nat) (h : ∀ c ∈ w, ¬ InSet .c0 c ∧ c ≠ 0x3F ∧ c ≠ 0x23) (hr : (w ++ r) <:+ x.input) :
    Goes x ⟨.cannotBeABaseUrlPath, { u with path := [q] }, [], w ++ r, false, false, false⟩
      ⟨.cannotBeABaseUrlPath, { u with path := [q ++ w] }, [], r, false, false, false⟩ := by
  refine goes_loop (fun b r => ⟨.cannotBeABaseUrlPath, { u with path := [b] }, [], r, false, false, false⟩) _ ?_ w q r h hr
  rintro b c r ⟨h1, h2, h3⟩ hr
  refine goes_step fun ec => ?_
  have h0 : c ≠ 0x0A := by rintro rfl; exact h1 (by decide)
  simp only [step, Cfg.st]
  rw [at_rest hr, onCannotBeABase, headOf, if_neg h2, if_neg h3]
  dsimp only
  rw [if_pos h0, show isC0ControlSet = setOf .c0 from rfl, cp_self h1 x.fuel (by have := hc.fuel; omega)]
  dsimp only
  rw [badIf_ec, badIf_ec]
  dsimp only
  generalize ecIf _ _ = e
  exact ⟨e, by simp; omega⟩

theorem opaque_query {u : Url} {r : List Nat} (hr : (0x3F :: r) <:+ x.input) :
    Goes x ⟨.cannotBeABaseUrlPath, u, [], 0x3F :: r, false, false, false⟩ ⟨.query, { u with query := some [] }, [], r, false, false, false⟩ := by
  refine goes_step fun ec => ⟨ec, ?_⟩
  simp only [step, Cfg.st]
  rw [at_rest hr, onCannotBeABase, headOf, if_pos rfl]
  simp
  omega

theorem opaque_fragment {u : Url} {r : List Nat} (hr : (0x23 :: r) <:+ x.input) :
    Goes x ⟨.cannotBeABaseUrlPath, u, [], 0x23 :: r, false, false, false⟩ ⟨.fragment, { u with fragment := some [] }, [], r, false, false, false⟩ := by
  refine goes_step fun ec => ⟨ec, ?_⟩
  simp only [step, Cfg.st]
  rw [at_rest hr, onCannotBeABase, headOf, if_neg (by simp), if_pos rfl]
  simp
  omega

theorem opaque_ends {u : Url} : Finishes x ⟨.cannotBeABaseUrlPath, u, [], [], false, false, false⟩ u := by
  refine ends_step fun ec => ?_
  simp only [step, Cfg.st]
  rw [at_rest List.nil_suffix, onCannotBeABase, headOf, if_neg (by simp), if_neg (by simp)]
  dsimp only
  rw [if_neg (by simp)]
  exact ⟨_, by simp, by simp, rfl⟩

/-! ### Query and fragment -/

theorem query_loop (u : Url) (w b r : List Nat) (a t : Bool) (h : ∀ c ∈ w, ¬ InSet .query c) (hr : (w ++ r) <:+ x.input) :
    Goes x ⟨.query, u, b, w ++ r, a, false, t⟩ ⟨.query, u, b ++ w, r, a, false, t⟩ := by
  refine goes_loop (fun b r => ⟨.query, u, b, r, a, false, t⟩) _ ?_ w b r h hr
  rintro b c r h1 hr
  refine goes_step fun ec => ?_
  have h0 : c ≠ 0x0A ∧ c ≠ 0x23 := by
    refine ⟨?_, ?_⟩ <;> (rintro rfl; exact h1 (by decide))
  simp only [step, Cfg.st]
  rw [at_rest hr, onQuery, headOf]
  simp only [ne_eq, not_true_eq_false, false_and, if_false]
  rw [if_neg (by rintro (⟨_, h⟩ | h); exacts [h0.2 h, h0.1 h]), badIf_ec, badIf_ec]
  dsimp only
  generalize ecIf _ _ = e
  exact ⟨e, by simp; omega⟩

theorem query_self {u : Url} {q : List Nat} (h : ∀ c ∈ q, ¬ InSet .query c ∧ (Special u.scheme → ¬ InSet .specialQuery c)) (fuel : Nat)
    (hf : q.length < fuel) :
    percentEncodeAfterEncoding fuel .UTF_8 q (if isSpecial u then isSpecialQuerySet else isQuerySet) false = .stop q := by
  have hs : ∀ c ∈ q, IsScalar c := fun c hc => by
    have := (h c hc).1
    exact scalar_small (by unfold InSet at this; omega)
  by_cases hsp : isSpecial u = true
  · rw [if_pos hsp]
    have := utf8_enc q hs .specialQuery fuel hf
    rw [enc_all fun c hc => (h c hc).2 ((special_iff _).mp hsp)] at this
    exact this
  · rw [if_neg hsp]
    have := utf8_enc q hs .query fuel hf
    rw [enc_all fun c hc => (h c hc).1] at this
    exact this

include ho hc in
theorem query_fragment {u : Url} {q r : List Nat} {a t : Bool} (hu : u.query = some [])
    (h : ∀ c ∈ q, ¬ InSet .query c ∧ (Special u.scheme → ¬ InSet .specialQuery c)) (hr : (q ++ 0x23 :: r) <:+ x.input) :
    Goes x ⟨.query, u, q, 0x23 :: r, a, false, t⟩ ⟨.fragment, { u with query := some q, fragment := some [] }, [], r, a, false, t⟩ := by
  have hr' : (0x23 :: r) <:+ x.input := (List.suffix_append _ _).trans hr
  have hl := hr.length_le
  rw [List.length_append] at hl
  refine goes_step fun ec => ⟨ec, ?_⟩
  simp only [step, Cfg.st]
  rw [at_rest hr', onQuery, headOf]
  simp only [ne_eq, not_true_eq_false, false_and, if_false]
  rw [if_pos (by simp [ho]), query_self h x.fuel (by have := hc.fuel; omega)]
  dsimp only
  rw [hu]
  dsimp only
  rw [if_pos (by simp)]
  simp
  omega

include hc in
theorem query_ends {u : Url} {q : List Nat} {a t : Bool} (hu : u.query = some [])
    (h : ∀ c ∈ q, ¬ InSet .query c ∧ (Special u.scheme → ¬ InSet .specialQuery c)) (hr : q <:+ x.input) :
    Finishes x ⟨.query, u, q, [], a, false, t⟩ { u with query := some q } := by
  have hl := hr.length_le
  refine ends_step fun ec => ?_
  simp only [step, Cfg.st]
  rw [at_rest List.nil_suffix, onQuery, headOf]
  simp only [ne_eq, not_true_eq_false, false_and, if_false]
  rw [if_pos (by simp), query_self h x.fuel (by have := hc.fuel; omega)]
  dsimp only
  rw [hu]
  dsimp only
  rw [if_neg (by simp)]
  exact ⟨_, by simp, by simp, rfl⟩

include hc in
theorem fragment_loop (u : Url) (w f r : List Nat) (a t : Bool) (h : ∀ c ∈ w, ¬ InSet .fragment c) (hr : (w ++ r) <:+ x.input) :
    Goes x ⟨.fragment, { u with fragment := some f }, [], w ++ r, a, false, t⟩
      ⟨.fragment, { u with fragment := some (f ++ w) }, [], r, a, false, t⟩ := by
  refine goes_loop (fun b r => ⟨.fragment, { u with fragment := some b }, [], r, a, false, t⟩) _ ?_ w f r h hr
  rintro b c r h1 hr
  refine goes_step fun ec => ?_
  have h0 : c ≠ 0x0A := by rintro rfl; exact h1 (by decide)
  simp only [step, Cfg.st]
  rw [at_rest hr, onFragment, headOf, if_pos h0]
  dsimp only
  rw [show isFragmentSet = setOf .fragment from rfl, cp_self h1 x.fuel (by have := hc.fuel; omega)]
  dsimp only
  rw [badIf_ec, badIf_ec]
  dsimp only
  generalize ecIf _ _ = e
  exact ⟨e, by simp; omega⟩

theorem fragment_ends {u : Url} {a t : Bool} : Finishes x ⟨.fragment, u, [], [], a, false, t⟩ u := by
  refine ends_step fun ec => ?_
  simp only [step, Cfg.st]
  rw [at_rest List.nil_suffix, onFragment, headOf, if_neg (by simp)]
  exact ⟨_, rfl, by simp, rfl⟩

end

end Verif.Proof.UrlAgain
