import Verif.Proof.UrlResolve
import Verif.Proof.UrlSim
import Verif.Props.UrlSet
/- Absolute references, and references with a host: the parser gets to the same state with and without the base. -/
namespace Verif.Proof.UrlJoin
open Verif.Model.Infra Verif.Model.Unicode Verif.Model.Coder Verif.Model.Legacy Verif.Model.Percent Verif.Model.Host Verif.Model.Url
open Verif.Spec Verif.Spec.Percent Verif.Spec.Host Verif.Spec.Url Verif.Spec.UrlSet Verif.Spec.UrlResolve
open Verif.Proof.UrlInner Verif.Proof.UrlEnds Verif.Proof.UrlValid Verif.Proof.UrlStep Verif.Proof.UrlApi Verif.Proof.UrlPort
open Verif.Proof.UrlAgain Verif.Proof.UrlSetters Verif.Proof.UrlWhole Verif.Proof.UrlResolve Verif.Proof.UrlSim Verif.Props.Percent

theorem create_result (A : List Nat → Ec → List Nat × Ec) (fuel n : Nat) (i : List Nat) (b : Option Url) :
    create A fuel n i b = result (run (parseCtx A fuel i b) n (parseSt i .UTF_8)) := by
  unfold create
  rw [parse_run]
  cases run (parseCtx A fuel i b) n (parseSt i .UTF_8) <;> rfl

theorem start_st (A : List Nat → Ec → List Nat × Ec) (fuel : Nat) (i : List Nat) (b : Option Url) :
    (⟨.schemeStart, {}, [], (parseCtx A fuel i b).input, false, false, false⟩ : Cfg).st (parseCtx A fuel i b) (parseSt i .UTF_8).ec = parseSt i .UTF_8 := by
  unfold Cfg.st parseSt
  simp [outputEncoding]

/-- Where a parser starts. -/
abbrev start (r : List Nat) : Cfg := ⟨.schemeStart, {}, [], r, false, false, false⟩

/-- Two parsers that get to the same state return the same. -/
theorem create_join {A : List Nat → Ec → List Nat × Ec} {fuel n : Nat} {i j : List Nat} {b b' : Option Url} (hi : ∀ c ∈ i, IsScalar c) (hj : ∀ c ∈ j, IsScalar c)
    (fi : 9 * i.length + 20 ≤ fuel) (fj : 9 * j.length + 20 ≤ fuel) (ni : 48 * i.length + 101 ≤ n) (nj : 48 * j.length + 101 ≤ n) {d : Cfg}
    (g1 : Goes (parseCtx A fuel i b) (start (parseCtx A fuel i b).input) d) (g2 : Goes (parseCtx A fuel j b') (start (parseCtx A fuel j b').input) d)
    (s1 : d.rest <:+ (parseCtx A fuel i b).input) (s2 : d.rest <:+ (parseCtx A fuel j b').input) (hd : Behind d.state) (hb : d.buffer = [])
    (hf : d.state = .file ∨ d.state = .fileSlash → NoFile b ∧ NoFile b') : create A fuel n i b = create A fuel n j b' := by
  rw [create_result, create_result]
  obtain ⟨e1, k1, h1⟩ := g1 (parseSt i .UTF_8).ec
  obtain ⟨e2, k2, h2⟩ := g2 (parseSt j .UTF_8).ec
  rw [start_st] at h1 h2
  have m1 : run (parseCtx A fuel i b) n (parseSt i .UTF_8) ≠ .more := by
    intro h
    rcases parse_ends A fuel n i hi fi b .UTF_8 (by decide) ni with ⟨_, s', h'⟩ | ⟨h', _⟩ <;> rw [parse_run, h] at h' <;> cases h'
  have m2 : run (parseCtx A fuel j b') n (parseSt j .UTF_8) ≠ .more := by
    intro h
    rcases parse_ends A fuel n j hj fj b' .UTF_8 (by decide) nj with ⟨_, s', h'⟩ | ⟨h', _⟩ <;> rw [parse_run, h] at h' <;> cases h'
  rw [← run_mono _ _ m1 k1, ← run_mono _ _ m2 k2, h1, h2]
  refine run_both (w := d.rest) s1 s2 b b' A fuel (nf := NoFile b ∧ NoFile b') And.left And.right n _ _ ⟨rfl, rfl, rfl, rfl, rfl, rfl, rfl, ?_⟩ ⟨?_, hd, hf⟩
  · show ((parseCtx A fuel j b').input.length : Int) - _ = ((parseCtx A fuel i b).input.length : Int) - _ + (((parseCtx A fuel j b').input.length : Int) - ((parseCtx A fuel i b).input.length : Int))
    omega
  · show ((parseCtx A fuel i b).input.length : Int) - _ ≤ ((parseCtx A fuel i b).input.length : Int) - _ - back _
    have : back (d.st (parseCtx A fuel i b) e1) = 0 := by
      unfold back Cfg.st
      rw [hb]
      split <;> simp
    rw [this]
    omega

section
variable {x : Ctx} (ho : x.override = none)

/-! ### Slashes -/

theorem ignore_one {u : Url} {c : Nat} {r : List Nat} (hr : (c :: r) <:+ x.input) (h : c = 0x2F ∨ c = 0x5C) :
    Goes x ⟨.specialAuthorityIgnoreSlashes, u, [], c :: r, false, false, false⟩ ⟨.specialAuthorityIgnoreSlashes, u, [], r, false, false, false⟩ := by
  refine goes_step fun ec => ⟨some .validationError, ?_⟩
  simp only [step, Cfg.st]
  rw [at_rest hr, onSpecialAuthorityIgnoreSlashes, headOf, if_neg (not_not.mpr h)]
  simp [St.bad]
  omega

/-- Where the slashes of a special URL end. -/
def ignored : List Nat → List Nat
  | 0x2F :: 0x2F :: s => s
  | r => r

theorem ignored_suffix (r : List Nat) : ignored r <:+ r := by
  unfold ignored
  split
  · exact (List.suffix_cons _ _).trans (List.suffix_cons _ _)
  · exact List.suffix_refl _

theorem slashes_goes {u : Url} {r : List Nat} (hr : r <:+ x.input) :
    Goes x ⟨.specialAuthoritySlashes, u, [], r, false, false, false⟩ ⟨.specialAuthorityIgnoreSlashes, u, [], ignored r, false, false, false⟩ := by
  unfold ignored
  split
  · rename_i s
    refine goes_step fun ec => ⟨ec, ?_⟩
    simp only [step, Cfg.st]
    rw [at_rest hr, onSpecialAuthoritySlashes, headOf, if_pos ⟨rfl, by simp [Ctx.left]; omega, by rw [at_next hr]; rfl⟩]
    simp
    omega
  · rename_i hne
    refine goes_step fun ec => ⟨some .validationError, ?_⟩
    simp only [step, Cfg.st]
    rw [onSpecialAuthoritySlashes, if_neg]
    · rfl
    · rintro ⟨h1, h2, h3⟩
      rw [at_rest hr] at h1
      cases r with
      | nil => cases h1
      | cons c r =>
        cases h1
        rw [at_next hr] at h3
        cases r with
        | nil => cases h3
        | cons d r => cases h3; exact hne r rfl

/-- Two slashes of any kind. -/
theorem slashes_two {u : Url} {c d : Nat} {s : List Nat} (hr : (c :: d :: s) <:+ x.input) (hc : c = 0x2F ∨ c = 0x5C) (hd : d = 0x2F ∨ d = 0x5C) :
    Goes x ⟨.specialAuthoritySlashes, u, [], c :: d :: s, false, false, false⟩ ⟨.specialAuthorityIgnoreSlashes, u, [], s, false, false, false⟩ := by
  have h := slashes_goes (u := u) hr
  unfold ignored at h
  split at h
  · rename_i s' heq
    injection heq with _ heq
    injection heq with _ heq
    rw [heq]
    rw [heq] at h
    exact h
  · exact h.trans ((ignore_one hr hc).trans (ignore_one ((List.suffix_cons _ _).trans hr) hd))

theorem file_two {u : Url} {c d : Nat} {s : List Nat} (hr : (c :: d :: s) <:+ x.input) (hc : c = 0x2F ∨ c = 0x5C) (hd : d = 0x2F ∨ d = 0x5C) :
    Goes x ⟨.file, u, [], c :: d :: s, false, false, false⟩
      ⟨.fileHost, { u with scheme := codes "file", host := some .empty }, [], s, false, false, false⟩ := by
  have hr' : (d :: s) <:+ x.input := (List.suffix_cons _ _).trans hr
  refine Goes.trans (d := ⟨.fileSlash, { u with scheme := codes "file", host := some .empty }, [], d :: s, false, false, false⟩) ?_ ?_
  · refine goes_step fun ec => ?_
    simp only [step, Cfg.st]
    rw [at_rest hr, onFile, headOf]
    dsimp only
    rw [if_pos hc, badIf_ec]
    generalize ecIf _ _ = e
    refine ⟨e, ?_⟩
    rw [show lit "file" = codes "file" from rfl]
    simp
    omega
  · refine goes_step fun ec => ?_
    simp only [step, Cfg.st]
    rw [at_rest hr', onFileSlash, headOf, if_pos hd, badIf_ec]
    generalize ecIf _ _ = e
    exact ⟨e, by simp; omega⟩

theorem slash_cases {t : List Nat} {c : Nat} (h : isSlash t c = true) : c = 0x2F ∨ c = 0x5C := by
  rw [isSlash, decide_eq_true_eq] at h
  exact h.imp id And.right

include ho in
/-- The colon of a special URL beside another base. -/
theorem colon_other {t r : List Nat} (hs : Special t) (hf : t ≠ codes "file") (hb : ∀ u, x.base = some u → u.scheme ≠ t) (hr : (0x3A :: r) <:+ x.input) :
    Goes x ⟨.scheme, {}, t, 0x3A :: r, false, false, false⟩ ⟨.specialAuthoritySlashes, { scheme := t }, [], r, false, false, false⟩ := by
  refine goes_step fun ec => ⟨ec, ?_⟩
  have hsp : isSpecialScheme t = true := (special_iff t).mpr hs
  simp only [step, Cfg.st]
  rw [at_rest hr, onScheme, headOf, if_neg (by decide), if_pos rfl, if_neg (by simp [ho]), afterScheme]
  dsimp only
  rw [if_neg (show ¬ t = lit "file" from hf), if_neg, if_pos (by exact hsp)]
  · simp
    omega
  · rintro ⟨_, h⟩
    cases hbb : x.base with
    | none => rw [hbb] at h; cases h
    | some u => rw [hbb] at h; exact hb u hbb (by simpa using h)

/-- Two slashes behind the relative state. -/
theorem relative_two {b : Url} (hb : x.base = some b) {t : List Nat} {c d : Nat} {s : List Nat} (hr : (c :: d :: s) <:+ x.input)
    (hc : isSlash b.scheme c = true) (hd : isSlash b.scheme d = true) :
    Goes x ⟨.relative, { scheme := t }, [], c :: d :: s, false, false, false⟩
      ⟨if Special b.scheme then .specialAuthorityIgnoreSlashes else .authority, { scheme := b.scheme }, [], s, false, false, false⟩ := by
  have hr' : (d :: s) <:+ x.input := (List.suffix_cons _ _).trans hr
  refine Goes.trans (d := ⟨.relativeSlash, { scheme := b.scheme }, [], d :: s, false, false, false⟩) ?_ ?_
  · refine goes_step fun ec => ?_
    simp only [step, Cfg.st]
    rw [at_rest hr, onRelative, hb, headOf]
    dsimp only
    by_cases hsl : c = 0x2F
    · rw [if_pos hsl]
      exact ⟨ec, by simp; omega⟩
    · rw [if_neg hsl, if_pos]
      · exact ⟨some .validationError, by simp [St.bad]; omega⟩
      · rw [isSlash, decide_eq_true_eq] at hc
        exact ⟨(special_iff _).mpr (hc.resolve_left hsl).1, (hc.resolve_left hsl).2⟩
  · refine goes_step fun ec => ?_
    simp only [step, Cfg.st]
    rw [at_rest hr', onRelativeSlash, headOf]
    by_cases hs : Special b.scheme
    · rw [if_pos hs, if_pos ⟨(special_iff _).mpr hs, slash_cases hd⟩, badIf_ec]
      generalize ecIf _ _ = e
      exact ⟨e, by simp; omega⟩
    · rw [if_neg hs, if_neg (fun h => hs ((special_iff _).mp h.1)), if_pos]
      · exact ⟨ec, by simp; omega⟩
      · rw [isSlash, decide_eq_true_eq] at hd
        exact hd.resolve_right fun h => hs h.1

/-- Two slashes behind the scheme of the base. -/
theorem special_two {b : Url} (hb : x.base = some b) (hsp : Special b.scheme) {c d : Nat} {s : List Nat} (hr : (c :: d :: s) <:+ x.input)
    (hc : isSlash b.scheme c = true) (hd : isSlash b.scheme d = true) :
    Goes x ⟨.specialRelativeOrAuthority, { scheme := b.scheme }, [], c :: d :: s, false, false, false⟩
      ⟨.specialAuthorityIgnoreSlashes, { scheme := b.scheme }, [], s, false, false, false⟩ := by
  by_cases h : ∃ s', c :: d :: s = 0x2F :: 0x2F :: s'
  · obtain ⟨s', h⟩ := h
    cases h
    refine goes_step fun ec => ⟨ec, ?_⟩
    simp only [step, Cfg.st]
    rw [at_rest hr, onSpecialRelativeOrAuthority, headOf, if_pos ⟨rfl, by simp [Ctx.left]; omega, by rw [at_next hr]; rfl⟩]
    simp
    omega
  · have g := relative_two hb (t := b.scheme) hr hc hd
    rw [if_pos hsp] at g
    exact (special_relative hr fun s' e => h ⟨s', e⟩).trans g

/-! ### Where a text with a scheme leads to -/

/-- The base does not matter. -/
def Apart (b : Option Url) (t r : List Nat) : Prop := ¬ Special t ∨ (∀ u, b = some u → u.scheme ≠ t) ∨ HasHost t r

/-- The state behind a scheme, and slashes. -/
noncomputable def behind (t r : List Nat) : Cfg :=
  open Classical in
  if Special t then
    match r with
    | c :: d :: s =>
      if isSlash t c = true ∧ isSlash t d = true then
        if t = codes "file" then ⟨.fileHost, { scheme := codes "file", host := some .empty }, [], s, false, false, false⟩
        else ⟨.specialAuthorityIgnoreSlashes, { scheme := t }, [], s, false, false, false⟩
      else if t = codes "file" then ⟨.file, { scheme := codes "file" }, [], r, false, false, false⟩
      else ⟨.specialAuthorityIgnoreSlashes, { scheme := t }, [], ignored r, false, false, false⟩
    | _ =>
      if t = codes "file" then ⟨.file, { scheme := codes "file" }, [], r, false, false, false⟩
      else ⟨.specialAuthorityIgnoreSlashes, { scheme := t }, [], ignored r, false, false, false⟩
  else if r.head? = some 0x2F ∧ r ≠ [0x2F] then ⟨.pathOrAuthority, { scheme := t }, [], r.tail, false, false, false⟩
  else ⟨.cannotBeABaseUrlPath, { scheme := t, cannotBeBase := true, path := [[]] }, [], r, false, false, false⟩

include ho in
theorem behind_goes {w r : List Nat} (hw : SchemeText w) (hr : x.input = w ++ 0x3A :: r) (ha : Apart x.base (w.map Verif.Spec.Infra.lower) r) :
    Goes x (start x.input) (behind (w.map Verif.Spec.Infra.lower) r) := by
  have hr0 : (w ++ 0x3A :: r) <:+ x.input := hr ▸ List.suffix_refl _
  have hr1 : (0x3A :: r) <:+ x.input := (List.suffix_append _ _).trans hr0
  have hr2 : r <:+ x.input := (List.suffix_cons _ _).trans hr1
  have g := start_some hw hr0
  rw [← hr] at g
  refine Goes.trans g ?_
  clear g
  generalize w.map Verif.Spec.Infra.lower = t at *
  unfold behind
  by_cases hs : Special t
  · rw [if_pos hs]
    have plain : (¬ ∃ c d s, r = c :: d :: s ∧ isSlash t c = true ∧ isSlash t d = true) → Goes x ⟨.scheme, {}, t, 0x3A :: r, false, false, false⟩
        (if t = codes "file" then ⟨.file, { scheme := codes "file" }, [], r, false, false, false⟩
          else ⟨.specialAuthorityIgnoreSlashes, { scheme := t }, [], ignored r, false, false, false⟩) := by
      intro hno
      by_cases hf : t = codes "file"
      · rw [if_pos hf, hf]; exact colon_file ho hr1
      · rw [if_neg hf]
        have hb : ∀ u, x.base = some u → u.scheme ≠ t := by
          rcases ha with h | h | h
          · exact absurd hs h
          · exact h
          · exact absurd h hno
        exact (colon_other ho hs hf hb hr1).trans (slashes_goes hr2)
    split
    · rename_i c d s
      by_cases h : isSlash t c = true ∧ isSlash t d = true
      · rw [if_pos h]
        by_cases hf : t = codes "file"
        · rw [if_pos hf, hf]
          exact (colon_file ho hr1).trans (file_two hr2 (slash_cases h.1) (slash_cases h.2))
        · rw [if_neg hf]
          by_cases hb : ∃ u, x.base = some u ∧ u.scheme = t
          · obtain ⟨u, hb, rfl⟩ := hb
            exact (colon_same ho hb hs hf hr1).trans (special_two hb hs hr2 h.1 h.2)
          · refine (colon_other ho hs hf (fun u hu he => hb ⟨u, hu, he⟩) hr1).trans (slashes_two hr2 (slash_cases h.1) (slash_cases h.2))
      · rw [if_neg h]
        refine plain ?_
        rintro ⟨c', d', s', e, h1, h2⟩
        cases e
        exact h ⟨h1, h2⟩
    · rename_i hne
      refine plain ?_
      rintro ⟨c', d', s', e, h1, h2⟩
      exact hne c' d' s' e
  · rw [if_neg hs]
    by_cases h : r.head? = some 0x2F ∧ r ≠ [0x2F]
    · rw [if_pos h]
      obtain ⟨h1, h2⟩ := h
      cases r with
      | nil => cases h1
      | cons c r =>
        obtain rfl : c = 0x2F := by simpa using h1
        exact colon_slash ho hs hr1 (by rintro rfl; exact h2 rfl)
    · rw [if_neg h]
      exact colon_opaque ho hs hr1 fun h1 => by
        by_contra h2
        exact h ⟨h1, h2⟩

theorem behind_ok (t r : List Nat) : Behind (behind t r).state ∧ (behind t r).buffer = [] ∧ (behind t r).rest <:+ r ∧
    ((behind t r).state = .file ∨ (behind t r).state = .fileSlash → t = codes "file" ∧ ¬ HasHost t r) := by
  unfold behind
  have hi := ignored_suffix r
  by_cases hs : Special t
  · rw [if_pos hs]
    split
    · rename_i c d s
      by_cases h : isSlash t c = true ∧ isSlash t d = true
      · rw [if_pos h]
        have : s <:+ c :: d :: s := (List.suffix_cons _ _).trans (List.suffix_cons _ _)
        split <;> exact ⟨trivial, rfl, this, by simp⟩
      · rw [if_neg h]
        split
        · rename_i hf
          refine ⟨trivial, rfl, List.suffix_refl _, fun _ => ⟨hf, ?_⟩⟩
          rintro ⟨c', d', s', e, h1, h2⟩
          cases e
          exact h ⟨h1, h2⟩
        · exact ⟨trivial, rfl, hi, by simp⟩
    · rename_i hne
      split
      · rename_i hf
        refine ⟨trivial, rfl, List.suffix_refl _, fun _ => ⟨hf, ?_⟩⟩
        rintro ⟨c', d', s', e, h1, h2⟩
        exact hne c' d' s' e
      · exact ⟨trivial, rfl, hi, by simp⟩
  · rw [if_neg hs]
    split
    · exact ⟨trivial, rfl, List.tail_suffix r, by simp⟩
    · exact ⟨trivial, rfl, List.suffix_refl _, by simp⟩

end

/-! ### Together -/

variable {A : List Nat → Ec → List Nat × Ec} {fuel n : Nat} {i j : List Nat}

/-- With a scheme. -/
theorem absolute {b b' : Option Url} (hi : ∀ c ∈ i, IsScalar c) (fi : 9 * i.length + 20 ≤ fuel) (ni : 48 * i.length + 101 ≤ n) {w r : List Nat}
    (hw : SchemeText w) (hr : cleaned (trimmed i) = w ++ 0x3A :: r) (ha : Apart b (w.map Verif.Spec.Infra.lower) r)
    (ha' : Apart b' (w.map Verif.Spec.Infra.lower) r) : create A fuel n i b = create A fuel n i b' := by
  have hrr : r <:+ w ++ 0x3A :: r := (List.suffix_cons _ _).trans (List.suffix_append _ _)
  obtain ⟨h1, h2, h3, h4⟩ := behind_ok (w.map Verif.Spec.Infra.lower) r
  have nof : ∀ {b : Option Url}, Apart b (w.map Verif.Spec.Infra.lower) r → w.map Verif.Spec.Infra.lower = codes "file" →
      ¬ HasHost (w.map Verif.Spec.Infra.lower) r → NoFile b := by
    intro b ha hf hh u hu
    rcases ha with h | h | h
    · exact absurd (hf ▸ file_special) h
    · rw [hf] at h; exact h u hu
    · exact absurd h hh
  refine create_join hi hi fi fi ni ni (behind_goes (x := parseCtx A fuel i b) rfl hw hr ha) (behind_goes (x := parseCtx A fuel i b') rfl hw hr ha')
    ?_ ?_ h1 h2 fun h => ⟨nof ha (h4 h).1 (h4 h).2, nof ha' (h4 h).1 (h4 h).2⟩
  · show _ <:+ cleaned (trimmed i)
    rw [hr]; exact h3.trans hrr
  · show _ <:+ cleaned (trimmed i)
    rw [hr]; exact h3.trans hrr

theorem lower_ok {t : List Nat} (h : SchemeOk t) : SchemeText t ∧ t.map Verif.Spec.Infra.lower = t := by
  obtain ⟨a, r, rfl, h1, h2⟩ := h
  have low : ∀ c, (Lower c ∨ (0x30 ≤ c ∧ c ≤ 0x39) ∨ c ∈ codes "+-.") → Verif.Spec.Infra.lower c = c := by
    intro c hc
    have e : codes "+-." = [0x2B, 0x2D, 0x2E] := by decide
    rw [e] at hc
    simp only [Lower, List.mem_cons, List.not_mem_nil, or_false] at hc
    unfold Verif.Spec.Infra.lower
    rw [if_neg (by omega)]
  refine ⟨⟨a, r, rfl, by rw [low a (Or.inl h1)]; exact h1, fun c hc => ?_⟩, ?_⟩
  · rw [low c (h2 c hc)]; exact h2 c hc
  · rw [List.map_cons, low a (Or.inl h1)]
    congr 1
    exact (List.map_congr_left fun c hc => low c (h2 c hc)).trans (List.map_id' r)

/-- With a host. -/
theorem hosted {b : Url} (hv : SchemeOk b.scheme) (hcb : b.cannotBeBase = false) (hi : ∀ c ∈ i, IsScalar c) (hj : ∀ c ∈ j, IsScalar c)
    (fi : 9 * i.length + 20 ≤ fuel) (fj : 9 * j.length + 20 ≤ fuel) (ni : 48 * i.length + 101 ≤ n) (nj : 48 * j.length + 101 ≤ n)
    (hns : ¬ HasScheme (cleaned (trimmed i))) (hh : HasHost b.scheme (cleaned (trimmed i)))
    (e : cleaned (trimmed j) = b.scheme ++ 0x3A :: cleaned (trimmed i)) : create A fuel n i (some b) = create A fuel n j none := by
  obtain ⟨hw, hlow⟩ := lower_ok hv
  have g2 := behind_goes (x := parseCtx A fuel j none) rfl hw e (Or.inr (Or.inl (by intro u hu; cases hu)))
  have g1 := start_none (x := parseCtx A fuel i (some b)) rfl hns
  have hs1 : cleaned (trimmed i) <:+ (parseCtx A fuel i (some b)).input := List.suffix_refl _
  have hs2 : cleaned (trimmed i) <:+ (parseCtx A fuel j none).input := by
    show _ <:+ cleaned (trimmed j)
    rw [e]
    exact (List.suffix_cons _ _).trans (List.suffix_append _ _)
  have g1' : Goes (parseCtx A fuel i (some b)) (start (parseCtx A fuel i (some b)).input) ⟨.noScheme, {}, [], cleaned (trimmed i), false, false, false⟩ := g1
  rw [hlow] at g2
  clear g1
  obtain ⟨c, d, s, hr, hc, hd⟩ := hh
  rw [hr] at g1' g2 hs1 hs2
  have hss : s <:+ c :: d :: s := (List.suffix_cons _ _).trans (List.suffix_cons _ _)
  by_cases hsp : Special b.scheme
  · by_cases hf : b.scheme = codes "file"
    · have : behind b.scheme (c :: d :: s) = ⟨.fileHost, { scheme := codes "file", host := some .empty }, [], s, false, false, false⟩ := by
        simp only [behind, if_pos hsp]
        rw [if_pos ⟨hc, hd⟩, if_pos hf]
      rw [this] at g2
      exact create_join hi hj fi fj ni nj ((g1'.trans (noScheme_file rfl hcb hf _)).trans (file_two hs1 (slash_cases hc) (slash_cases hd))) g2
        (hss.trans hs1) (hss.trans hs2) trivial rfl (by simp)
    · have : behind b.scheme (c :: d :: s) = ⟨.specialAuthorityIgnoreSlashes, { scheme := b.scheme }, [], s, false, false, false⟩ := by
        simp only [behind, if_pos hsp]
        rw [if_pos ⟨hc, hd⟩, if_neg hf]
      rw [this] at g2
      have g := relative_two (x := parseCtx A fuel i (some b)) rfl (t := []) hs1 hc hd
      rw [if_pos hsp] at g
      exact create_join hi hj fi fj ni nj ((g1'.trans (noScheme_relative rfl hcb hf _)).trans g) g2
        (hss.trans hs1) (hss.trans hs2) trivial rfl (by simp)
  · have hf : b.scheme ≠ codes "file" := fun h => hsp (h ▸ file_special)
    have slash : ∀ {c}, isSlash b.scheme c = true → c = 0x2F := by
      intro c hc
      rw [isSlash, decide_eq_true_eq] at hc
      exact hc.resolve_right fun h => hsp h.1
    obtain rfl := slash hc
    obtain rfl := slash hd
    have : behind b.scheme (0x2F :: 0x2F :: s) = ⟨.pathOrAuthority, { scheme := b.scheme }, [], 0x2F :: s, false, false, false⟩ := by
      simp [behind, hsp]
    rw [this] at g2
    have g := relative_two (x := parseCtx A fuel i (some b)) rfl (t := []) hs1 hc hd
    rw [if_neg hsp] at g
    exact create_join hi hj fi fj ni nj ((g1'.trans (noScheme_relative rfl hcb hf _)).trans g)
      (g2.trans (slash_authority ((List.suffix_cons _ _).trans hs2))) (hss.trans hs1) (hss.trans hs2) trivial rfl (by simp)

/-- From the end of a parser to the constructor. -/
theorem create_of {b : Option Url} (hi : ∀ c ∈ i, IsScalar c) (fi : 9 * i.length + 20 ≤ fuel) (ni : 48 * i.length + 101 ≤ n) {v : Bool} {s' : St} {k : Nat}
    (h : ∀ n, run (parseCtx A fuel i b) (n + k) ((start (parseCtx A fuel i b).input).st (parseCtx A fuel i b) (parseSt i .UTF_8).ec) = .stop (v, s')) :
    create A fuel n i b = .stop (if v then some s'.url else none) := by
  rw [create_result]
  rw [start_st] at h
  have m1 : run (parseCtx A fuel i b) n (parseSt i .UTF_8) ≠ .more := by
    intro h
    rcases parse_ends A fuel n i hi fi b .UTF_8 (by decide) ni with ⟨_, s', h'⟩ | ⟨h', _⟩ <;> rw [parse_run, h] at h' <;> cases h'
  rw [← run_mono _ _ m1 k, h]
  rfl

theorem tidied_eq (i : List Nat) : cleaned (trimmed i) = tidied i := by
  have e : (fun c : Nat => decide (c ≤ 0x20)) = isC0ControlOrSpace := by
    funext c
    rw [Bool.eq_iff_iff]
    simp [isC0ControlOrSpace, isC0Control]
    omega
  rw [Verif.Props.UrlSet.cleaned_eq, tidied, e]
  rfl

/-! ### Tidied texts -/

theorem drop_tidy {s : List Nat} {c : Nat} {t : List Nat} (hc : 0x20 < c) (h : s = c :: t) : s.dropWhile (fun c => decide (c ≤ 0x20)) = s := by
  subst h
  rw [List.dropWhile_cons, if_neg (by simp; omega)]

theorem last_tidy {s : List Nat} {c : Nat} {t : List Nat} (hc : 0x20 < c) (h : s = t ++ [c]) :
    (s.reverse.dropWhile (fun c => decide (c ≤ 0x20))).reverse = s := by
  subst h
  rw [List.reverse_append, List.reverse_singleton, List.singleton_append, drop_tidy hc rfl]
  simp

/-- A tidied text ends with something else than a space. -/
theorem tidied_last (i : List Nat) : tidied i = [] ∨ ∃ t c, tidied i = t ++ [c] ∧ 0x20 < c := by
  unfold tidied
  generalize (i.dropWhile fun c => decide (c ≤ 0x20)).reverse = r
  cases h : r.dropWhile fun c => decide (c ≤ 0x20) with
  | nil => exact Or.inl rfl
  | cons c t =>
    have hc : 0x20 < c := by
      have := List.head_dropWhile_not (fun c : Nat => decide (c ≤ 0x20)) (l := r) (by rw [h]; simp)
      simp only [h, List.head_cons] at this
      simpa using this
    right
    refine ⟨joined t.reverse, c, ?_, hc⟩
    rw [List.reverse_cons]
    unfold joined
    rw [List.filter_append]
    congr 1
    rw [List.filter_cons_of_pos (by simp; omega)]
    rfl

theorem joined_joined (s : List Nat) : joined (joined s) = joined s := by
  unfold joined
  rw [List.filter_filter]
  congr 1
  funext c
  simp

/-- A scheme in front of a tidied text leaves it tidied. -/
theorem tidied_front {t : List Nat} (ht : SchemeOk t) (i : List Nat) : tidied (t ++ 0x3A :: tidied i) = t ++ 0x3A :: tidied i := by
  obtain ⟨hw, _⟩ := lower_ok ht
  obtain ⟨a, r, rfl, h1, h2⟩ := ht
  have big : ∀ c, (Lower c ∨ (0x30 ≤ c ∧ c ≤ 0x39) ∨ c ∈ codes "+-.") → 0x20 < c := by
    intro c hc
    have e : codes "+-." = [0x2B, 0x2D, 0x2E] := by decide
    rw [e] at hc
    simp only [Lower, List.mem_cons, List.not_mem_nil, or_false] at hc
    omega
  have hj : joined (a :: r ++ 0x3A :: tidied i) = a :: r ++ 0x3A :: tidied i := by
    have e1 : joined (tidied i) = tidied i := by unfold tidied; exact joined_joined _
    have e2 : joined (a :: r) = a :: r := by
      unfold joined
      rw [List.filter_eq_self]
      intro c hc
      have : 0x20 < c := by
        rcases List.mem_cons.mp hc with rfl | hc
        · exact big c (Or.inl h1)
        · exact big c (h2 c hc)
      simp
      omega
    have e3 : joined (a :: r ++ 0x3A :: tidied i) = joined (a :: r) ++ 0x3A :: joined (tidied i) := by
      unfold joined
      rw [List.filter_append, List.filter_cons_of_pos (a := 0x3A) (by decide)]
    rw [e3, e1, e2]
  have : ∃ u c, a :: r ++ 0x3A :: tidied i = u ++ [c] ∧ 0x20 < c := by
    rcases tidied_last i with h | ⟨u, c, h, hc⟩
    · exact ⟨a :: r, 0x3A, by rw [h], by decide⟩
    · exact ⟨a :: r ++ 0x3A :: u, c, by rw [h]; simp, hc⟩
  obtain ⟨u, c, e, hc⟩ := this
  rw [show tidied (a :: r ++ 0x3A :: tidied i) = joined (((a :: r ++ 0x3A :: tidied i).dropWhile fun c => decide (c ≤ 0x20)).reverse.dropWhile
    fun c => decide (c ≤ 0x20)).reverse from rfl,
    drop_tidy (s := a :: r ++ 0x3A :: tidied i) (t := r ++ 0x3A :: tidied i) (big a (Or.inl h1)) rfl, last_tidy hc e, hj]

end Verif.Proof.UrlJoin
