import Verif.Proof.UrlWhole
/- Reading the text of a URL. -/
namespace Verif.Proof.UrlRead
open Verif.Model.Infra Verif.Model.Unicode Verif.Model.Coder Verif.Model.Legacy Verif.Model.Percent Verif.Model.Host Verif.Model.Url
open Verif.Spec Verif.Spec.Percent Verif.Spec.Host Verif.Spec.Url Verif.Spec.UrlText
open Verif.Proof.UrlInner Verif.Proof.UrlEnds Verif.Proof.UrlValid Verif.Proof.UrlStep Verif.Proof.UrlApi Verif.Proof.UrlPort
open Verif.Proof.UrlAgain Verif.Proof.UrlWhole

/-! ### The text -/

/-- Query and fragment. -/
def tailText (u : Url) : List Nat := queryText u.query ++ fragmentText u.fragment

theorem user_match (u : Url) : (if includesCredentials u then u.username ++ (if u.password ≠ [] then 0x3A :: u.password else []) ++ [0x40] else []) =
    userText u.username u.password := by
  unfold includesCredentials userText credText
  cases h1 : u.username <;> cases h2 : u.password <;> simp

theorem text_host {u : Url} {h : Host} {w : List Nat} (hh : u.host = some h) (hw : serializeHost h = some w) (hb : u.cannotBeBase = false) :
    serializeUrl u false = some (u.scheme ++ 0x3A :: 0x2F :: 0x2F :: (userText u.username u.password ++ (w ++ (portText u.port ++
      (segsText u.path ++ tailText u))))) := by
  unfold serializeUrl tailText
  simp only [hh, hw, hb, user_match]
  cases u.query <;> cases u.fragment <;> cases u.port <;>
    simp [segsText, queryText, fragmentText, portText, serializeInteger, Verif.Proof.Digits.toChars_decimal]

theorem text_nohost {u : Url} (hh : u.host = none) (hb : u.cannotBeBase = false) :
    serializeUrl u false = some (u.scheme ++ 0x3A :: ((if 1 < u.path.length ∧ u.path.headD [] = [] then [0x2F, 0x2E] else []) ++
      (segsText u.path ++ tailText u))) := by
  unfold serializeUrl tailText
  simp only [hh, hb]
  cases u.query <;> cases u.fragment <;> simp [segsText, queryText, fragmentText]

theorem text_cannot {u : Url} {p : List Nat} (hh : u.host = none) (hb : u.cannotBeBase = true) (hp : u.path = [p]) :
    serializeUrl u false = some (u.scheme ++ 0x3A :: (p ++ tailText u)) := by
  unfold serializeUrl tailText
  simp only [hh, hb, hp]
  cases u.query <;> cases u.fragment <;> simp [queryText, fragmentText]

theorem tail_head (u : Url) : tailText u = [] ∨ (∃ r, tailText u = 0x3F :: r) ∨ ∃ r, tailText u = 0x23 :: r := by
  unfold tailText
  cases u.query with
  | some q => exact Or.inr (Or.inl ⟨_, rfl⟩)
  | none =>
    cases u.fragment with
    | some f => exact Or.inr (Or.inr ⟨_, rfl⟩)
    | none => exact Or.inl rfl

theorem tail_nil {u : Url} (h : tailText u = []) : u.query = none ∧ u.fragment = none := by
  unfold tailText at h
  rw [List.append_eq_nil_iff] at h
  refine ⟨?_, ?_⟩
  · cases hq : u.query with
    | none => rfl
    | some q => rw [hq] at h; exact absurd h.1 (by simp [queryText])
  · cases hq : u.fragment with
    | none => rfl
    | some q => rw [hq] at h; exact absurd h.2 (by simp [fragmentText])

theorem ends_rest (v u : Url) (ps : List (List Nat)) : endsAuthority v (headOf (segsText ps ++ tailText u)) = true := by
  cases ps with
  | nil =>
    rcases tail_head u with h | ⟨r, h⟩ | ⟨r, h⟩ <;> simp [segsText, h, headOf, endsAuthority]
  | cons p ps => simp [segsText, headOf, endsAuthority]

/-- What is known of the record besides its shape. -/
structure Kept (toAscii : List Nat → Ec → List Nat × Ec) (u : Url) : Prop where
  domain : ∀ d, u.host = some (.domain d) → ∃ q e, toAscii q none = (d, none) ∧ parseIpv4 d none = some (.opaque d, e)
  port : ∀ p, u.port = some p → p < 65535

section
variable {x : Ctx} (ho : x.override = none) (hb : x.base = none) (hc : CInv x) {u : Url} (hv : ValidUrl u) (hre : Readable u)

include hv in
theorem keeps (hcb : u.cannotBeBase = false) {v : Url} (hs : v.scheme = u.scheme) : ∀ p ∈ u.path, Keeps v p := by
  intro p hp
  obtain ⟨h1, h2⟩ := hv.path hcb p hp
  refine ⟨h1, fun c hc => ?_⟩
  obtain ⟨h3, h4, h5⟩ := h2 c hc
  refine ⟨h3, h4, fun hsp => h5 ?_⟩
  rw [← hs]
  exact (special_iff _).mp hsp

theorem letter_alpha {a : Nat} : Letter a ↔ isAsciiAlpha a = true := by
  simp [Letter, isAsciiAlpha, isAsciiUpperAlpha, isAsciiLowerAlpha]

include hre in
theorem drive_colon (hf : u.scheme = codes "file") : ∀ p, u.path.head? = some p → isWindowsDriveLetter p = true → p[1]? = some 0x3A := by
  intro p hp hd
  match p, hd with
  | [a, b], hd =>
    simp [isWindowsDriveLetter] at hd
    obtain ⟨h1, h2 | h2⟩ := hd
    · simp [h2]
    · subst h2
      exact absurd (letter_alpha.mpr h1) (hre.drive hf a hp)

include ho hc hv hre in
/-- A URL that cannot be a base. -/
theorem read_cannot (hcb : u.cannotBeBase = true) (hi : serializeUrl u false = some x.input) :
    Finishes x ⟨.schemeStart, {}, [], x.input, false, false, false⟩ u := by
  obtain ⟨hh, p, hp, hpc⟩ := hv.cannot hcb
  have hsp : ¬ Special u.scheme := fun h => by have := (hv.special h).2.2.1; rw [hcb] at this; cases this
  have hcr : u.username = [] ∧ u.password = [] ∧ u.port = none := by
    refine ⟨?_, ?_, ?_⟩
    all_goals
      by_contra h
      obtain ⟨k, hk, _⟩ := hv.authority (by tauto)
      rw [hh] at hk; cases hk
  rw [text_cannot hh hcb hp] at hi
  injection hi with hi
  have hr : (u.scheme ++ 0x3A :: (p ++ tailText u)) <:+ x.input := by rw [hi]; exact List.suffix_rfl
  have hr1 : (0x3A :: (p ++ tailText u)) <:+ x.input := (List.suffix_append _ _).trans hr
  have hr2 : (p ++ tailText u) <:+ x.input := (List.suffix_cons _ _).trans hr1
  rw [← hi]
  refine (whole_scheme hv.scheme hr {}).ends ((colon_opaque ho hsp hr1 ?_).ends ?_)
  · intro h
    cases p with
    | nil =>
      rcases tail_head u with h' | ⟨r, h'⟩ | ⟨r, h'⟩ <;> rw [h'] at h <;> simp at h
    | cons c p =>
      simp at h
      subst h
      obtain ⟨h1, h2, h3⟩ := hre.slash hcb p hp
      simp [h1, tailText, h2, h3, queryText, fragmentText]
  · have e := opaque_loop hc { scheme := u.scheme, cannotBeBase := true } p [] (tailText u) hpc hr2
    refine e.ends ?_
    have := tail_finishes ho hc (g := fun r => ⟨.cannotBeABaseUrlPath, { scheme := u.scheme, cannotBeBase := true, path := [p] }, [], r, false, false, false⟩)
      (fun r hr => opaque_query hr) (fun r hr => opaque_fragment hr) opaque_ends rfl rfl hv.query hv.fragment
      ((List.suffix_append p _).trans hr2)
    have eu : u = { scheme := u.scheme, cannotBeBase := true, path := [p], query := u.query, fragment := u.fragment } := by
      obtain ⟨a1, a2, a3⟩ := hcr
      cases u; simp_all
    rw [List.nil_append]
    rw [eu]
    rw [eu] at this
    exact this

include ho hc hv hre in
/-- A URL with a path and without a host. -/
theorem read_nohost (hcb : u.cannotBeBase = false) (hh : u.host = none) (hi : serializeUrl u false = some x.input) :
    Finishes x ⟨.schemeStart, {}, [], x.input, false, false, false⟩ u := by
  have hsp : ¬ Special u.scheme := fun h => (hv.special h).1 hh
  have hnf : u.scheme ≠ codes "file" := fun h => hsp (h ▸ file_special)
  have hcr : u.username = [] ∧ u.password = [] ∧ u.port = none := by
    refine ⟨?_, ?_, ?_⟩
    all_goals
      by_contra h
      obtain ⟨k, hk, _⟩ := hv.authority (by tauto)
      rw [hh] at hk; cases hk
  obtain ⟨hne, hlone⟩ := hre.rooted hh hcb
  have hk := keeps hv hcb (v := { scheme := u.scheme }) rfl
  rw [text_nohost hh hcb] at hi
  injection hi with hi
  obtain ⟨p, ps, hp⟩ := List.exists_cons_of_ne_nil hne
  have eu : u = { scheme := u.scheme, path := p :: ps, query := u.query, fragment := u.fragment } := by
    obtain ⟨a1, a2, a3⟩ := hcr
    cases u; simp_all
  have fin : ∀ r, r = p ++ (segsText ps ++ tailText u) → r <:+ x.input → Finishes x ⟨.path, { scheme := u.scheme }, [], r, false, false, false⟩ u := by
    rintro r rfl hr
    have := path_finishes ho hc (a := false) (t := false) ps p { scheme := u.scheme } rfl rfl (by rw [← hp]; exact hk)
      (fun h => absurd h hnf) hv.query hv.fragment hr
    rw [List.nil_append] at this
    have e2 : ({ scheme := u.scheme, path := p :: ps, query := u.query, fragment := u.fragment } : Url) = u := eu.symm
    rw [← e2]
    rw [← e2] at this
    exact this
  by_cases hdot : 1 < u.path.length ∧ u.path.headD [] = []
  · rw [if_pos hdot] at hi
    rw [hp] at hdot
    obtain rfl : p = [] := hdot.2
    have e : u.scheme ++ 0x3A :: ([0x2F, 0x2E] ++ (segsText u.path ++ tailText u)) =
        u.scheme ++ 0x3A :: 0x2F :: ([0x2E] ++ 0x2F :: ([] ++ (segsText ps ++ tailText u))) := by
      rw [hp]; simp [segsText]
    rw [e] at hi
    have hr : (u.scheme ++ 0x3A :: 0x2F :: ([0x2E] ++ 0x2F :: ([] ++ (segsText ps ++ tailText u)))) <:+ x.input := by rw [hi]; exact List.suffix_rfl
    have hr1 := (List.suffix_append u.scheme _).trans hr
    have hr2 := (List.suffix_cons 0x2F _).trans ((List.suffix_cons 0x3A _).trans hr1)
    have hr3 := (List.suffix_append [0x2E] _).trans hr2
    have hr4 := (List.suffix_cons 0x2F _).trans hr3
    rw [← hi]
    refine (whole_scheme hv.scheme hr {}).ends ((colon_slash ho hsp hr1 (by simp)).ends ((no_authority hr2 (by simp [headOf])).ends ?_))
    refine (path_loop ho hc { scheme := u.scheme } [0x2E] [] _ false false (fun c hc => by
      obtain rfl := List.mem_singleton.mp hc
      exact ⟨by decide, by decide, fun _ => by decide⟩) hr2).ends ?_
    refine (path_slash (v := { scheme := u.scheme }) ?_ hr3).ends (fin _ rfl hr4)
    have h1 : isDoubleDot [0x2E] = some false := by decide +kernel
    have h2 : isSingleDot [0x2E] = true := by decide
    simp only [pushSegment, List.nil_append, h1, h2, if_true]
  · rw [if_neg hdot] at hi
    have e : u.scheme ++ 0x3A :: ([] ++ (segsText u.path ++ tailText u)) =
        u.scheme ++ 0x3A :: 0x2F :: (p ++ (segsText ps ++ tailText u)) := by
      rw [hp]; simp [segsText]
    rw [e] at hi
    have hr : (u.scheme ++ 0x3A :: 0x2F :: (p ++ (segsText ps ++ tailText u))) <:+ x.input := by rw [hi]; exact List.suffix_rfl
    have hr1 := (List.suffix_append u.scheme _).trans hr
    have hr2 := (List.suffix_cons 0x2F _).trans ((List.suffix_cons 0x3A _).trans hr1)
    rw [← hi]
    have hd : headOf (p ++ (segsText ps ++ tailText u)) ≠ 0x2F ∧ p ++ (segsText ps ++ tailText u) ≠ [] := by
      cases p with
      | cons c p =>
        refine ⟨?_, by simp⟩
        exact ((hk (c :: p) (by rw [hp]; simp)).2 c (by simp)).2.1
      | nil =>
        have hps : ps = [] := by
          cases ps with
          | nil => rfl
          | cons s ps => rw [hp] at hdot; simp at hdot
        subst hps
        have := hlone hp
        rcases tail_head u with h | ⟨r, h⟩ | ⟨r, h⟩
        · obtain ⟨h1, h2⟩ := tail_nil h
          rw [h1, h2] at this
          simp at this
        · simp [segsText, h, headOf]
        · simp [segsText, h, headOf]
    refine (whole_scheme hv.scheme hr {}).ends ((colon_slash ho hsp hr1 hd.2).ends ((no_authority hr2 hd.1).ends (fin _ rfl hr2)))

include ho hb hc hv hre in
/-- A URL with a host, other than `file`. -/
theorem read_host (hcb : u.cannotBeBase = false) {h : Host} {w : List Nat} (hh : u.host = some h) (hnf : u.scheme ≠ codes "file")
    (hg : Good x { scheme := u.scheme } h w) (hpo : ∀ p, u.port = some p → p < 65535) (hi : serializeUrl u false = some x.input) :
    Finishes x ⟨.schemeStart, {}, [], x.input, false, false, false⟩ u := by
  rw [text_host hh hg.text hcb] at hi
  injection hi with hi
  have hr : (u.scheme ++ 0x3A :: 0x2F :: 0x2F :: (userText u.username u.password ++ (w ++ (portText u.port ++
      (segsText u.path ++ tailText u))))) <:+ x.input := by rw [hi]; exact List.suffix_rfl
  have hr1 := (List.suffix_append u.scheme _).trans hr
  have hr2 := (List.suffix_cons 0x3A _).trans hr1
  have hr3 := (List.suffix_cons 0x2F _).trans hr2
  have hr4 := (List.suffix_cons 0x2F _).trans hr3
  have hr5 := (List.suffix_append w _).trans ((List.suffix_append (userText u.username u.password) _).trans hr4)
  have hr6 := (List.suffix_append (portText u.port) _).trans hr5
  obtain ⟨a, k, hau⟩ := authority_goes ho hc hv.username hv.password hg
    (fun hcr => by
      obtain ⟨k, hk, hbl⟩ := hv.authority hcr
      rw [hh] at hk
      injection hk with hk
      exact hk ▸ hbl)
    (fun p hp => ⟨hpo p hp, (hv.port p hp).2⟩) (ends_rest _ u u.path) hr4
  have hrest := rest_finishes ho hc (v := { scheme := u.scheme, username := u.username, password := u.password, host := some h, port := u.port })
    (ps := u.path) (q := u.query) (f := u.fragment) (a := a) (t := k) rfl rfl rfl (fun hs => (hv.special ((special_iff _).mp hs)).2.1)
    (keeps hv hcb rfl) (fun hf => absurd hf hnf) hv.query hv.fragment hr6
  have eu : ({ scheme := u.scheme, username := u.username, password := u.password, host := some h, port := u.port, path := u.path, query := u.query, fragment := u.fragment } : Url) = u := by
    cases u; simp_all
  have fin := hau.ends (u := u) (by rw [← eu]; rw [← eu] at hrest; exact hrest)
  rw [← hi]
  refine (whole_scheme hv.scheme hr {}).ends ?_
  by_cases hsp : Special u.scheme
  · refine (colon_special ho hb hsp hnf hr1).ends ?_
    have hw : w ≠ [] := hg.special ((special_iff _).mpr hsp)
    have : ∃ c r, userText u.username u.password ++ (w ++ (portText u.port ++ (segsText u.path ++ tailText u))) = c :: r ∧ c ≠ 0x2F ∧ c ≠ 0x5C := by
      have hall : ∀ c ∈ userText u.username u.password ++ w, c ≠ 0x2F ∧ c ≠ 0x5C := by
        intro c hc
        rcases List.mem_append.mp hc with hc | hc
        · unfold userText at hc
          split at hc
          · simp at hc
          · rcases List.mem_append.mp hc with hc | hc
            · have := credText_chars hv.username hv.password c hc; omega
            · obtain rfl := List.mem_singleton.mp hc; decide
        · have := hg.chars c hc; omega
      obtain ⟨c, r, hcr⟩ := List.exists_cons_of_ne_nil (show userText u.username u.password ++ w ≠ [] by simp [hw])
      exact ⟨c, _, by rw [← List.append_assoc, hcr]; rfl, hall c (by rw [hcr]; simp)⟩
    obtain ⟨c, r, hcr, h1, h2⟩ := this
    rw [hcr] at fin hr2 ⊢
    exact (slashes_special hr2 h1 h2).ends fin
  · exact (colon_slash ho hsp hr1 (by simp)).ends ((slash_authority hr3).ends fin)

include ho hc hv hre in
/-- A `file` URL. -/
theorem read_file (hf : u.scheme = codes "file") (hg : ∀ d, u.host = some (.domain d) → Good x { scheme := codes "file" } (.domain d) d)
    (hi : serializeUrl u false = some x.input) : Finishes x ⟨.schemeStart, {}, [], x.input, false, false, false⟩ u := by
  have hsp : Special u.scheme := hf ▸ file_special
  obtain ⟨h1, h2, hcb, _⟩ := hv.special hsp
  obtain ⟨hus, hpa, hpo⟩ := hv.file hf
  obtain ⟨hf6, hf4, hloc, hdrv⟩ := hre.file hf
  obtain ⟨p, ps, hp⟩ := List.exists_cons_of_ne_nil h2
  have hk := hv.host
  have main : ∀ (h : Host) (w : List Nat), u.host = some h → serializeHost h = some w → (h = .empty ∨ h = .domain w) →
      Finishes x ⟨.schemeStart, {}, [], x.input, false, false, false⟩ u := by
    intro h w hh hw hor
    rw [text_host hh hw hcb, hus, hpa, hpo] at hi
    injection hi with hi
    have e : u.scheme ++ 0x3A :: 0x2F :: 0x2F :: (userText [] [] ++ (w ++ (portText none ++ (segsText u.path ++ tailText u)))) =
        u.scheme ++ 0x3A :: 0x2F :: 0x2F :: (w ++ 0x2F :: (p ++ (segsText ps ++ tailText u))) := by
      rw [hp]; simp [userText, portText, segsText]
    rw [e, hf] at hi
    have hr : (codes "file" ++ 0x3A :: 0x2F :: 0x2F :: (w ++ 0x2F :: (p ++ (segsText ps ++ tailText u)))) <:+ x.input := by
      rw [hi]; exact List.suffix_rfl
    have hr1 := (List.suffix_append (codes "file") _).trans hr
    have hr2 := (List.suffix_cons 0x3A _).trans hr1
    have hr3 := (List.suffix_cons 0x2F _).trans ((List.suffix_cons 0x2F _).trans hr2)
    have hr4 := (List.suffix_append w _).trans hr3
    have eu : ({ scheme := codes "file", host := some h, path := u.path, query := u.query, fragment := u.fragment } : Url) = u := by
      cases u; simp_all
    have e2 : segsText u.path ++ (queryText u.query ++ fragmentText u.fragment) = 0x2F :: (p ++ (segsText ps ++ tailText u)) := by
      rw [hp]; simp [segsText, tailText]
    have hrest := rest_finishes ho hc (v := { scheme := codes "file", host := some h }) (ps := u.path) (q := u.query) (f := u.fragment)
      (a := false) (t := false) rfl rfl rfl (fun _ => h2) (keeps hv hcb hf.symm) (fun _ => drive_colon hre hf)
      (by intro w hw c hc; have := hv.query w hw c hc; rw [hf] at this; exact this) hv.fragment (by rw [e2]; exact hr4)
    rw [e2] at hrest
    have fin : Finishes x ⟨.pathStart, { scheme := codes "file", host := some h }, [], 0x2F :: (p ++ (segsText ps ++ tailText u)), false, false, false⟩ u := by
      rw [← eu]; rw [← eu] at hrest; exact hrest
    rw [← hi]
    refine (whole_scheme (hf ▸ hv.scheme) hr {}).ends ((colon_file ho hr1).ends ((file_slashes rfl hr2).ends ?_))
    rcases hor with rfl | rfl
    · obtain rfl : w = [] := by simpa [serializeHost] using hw.symm
      exact (fileHost_empty ho hr4).ends fin
    · have hgd := hg w hh
      refine (fileHost_loop _ w [] _ (fun c hc => by have := hgd.chars c hc; omega) hr3).ends ?_
      refine (fileHost_domain ho (u := { scheme := codes "file", host := some .empty }) (hgd.blank (by simp [Blank])) (fun h => hloc (by rw [hh, h])) ?_ hgd.parsed hr4).ends fin
      cases hdl : isWindowsDriveLetter w with
      | false => rfl
      | true =>
        exfalso
        match w, hdl, hh, hgd with
        | [a, b], hdl, hh, hgd =>
          simp [isWindowsDriveLetter] at hdl
          obtain ⟨h3, h4 | h4⟩ := hdl
          · subst h4
            have := hv.host _ hh
            rw [hf] at this
            exact this.2.2 0x3A (by simp) (by decide)
          · subst h4
            exact hdrv a hh (letter_alpha.mpr h3)
  cases hh : u.host with
  | none => exact absurd hh h1
  | some h =>
    have hgood := hk h hh
    cases h with
    | null => exact hgood.elim
    | empty => exact main _ [] hh rfl (Or.inl rfl)
    | domain d => exact main _ d hh rfl (Or.inr rfl)
    | ipv4 n => exact absurd hh (hf4 n)
    | ipv6 a => exact absurd hh (hf6 a)
    | «opaque» s => exact absurd hsp hgood.1

end

end Verif.Proof.UrlRead
