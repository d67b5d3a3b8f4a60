import Verif.Proof.UrlValid
/- Every iteration of the URL parser keeps its record valid. -/
namespace Verif.Proof.UrlStep
open Verif.Model.Infra Verif.Model.Unicode Verif.Model.Coder Verif.Model.Legacy Verif.Model.Percent Verif.Model.Host Verif.Model.Url
open Verif.Spec Verif.Spec.Percent Verif.Spec.Host Verif.Spec.Url
open Verif.Proof.UrlInner Verif.Proof.UrlEnds Verif.Proof.UrlValid
open Verif.Props.Percent

theorem lower_alpha {c : Nat} (h : isAsciiAlpha c = true) : ∃ l, toAsciiLowercase .c32 .c32 [c] = some [l] ∧ Lower l := by
  refine ⟨_, lower_char c (alpha_lt h), ?_⟩
  simp [isAsciiAlpha, isAsciiUpperAlpha, isAsciiLowerAlpha] at h
  unfold Lower
  split <;> omega

theorem lower_scheme {c : Nat} (h : (isAsciiAlphanumeric c || c == 0x2B || c == 0x2D || c == 0x2E) = true) :
    ∃ l, toAsciiLowercase .c32 .c32 [c] = some [l] ∧ (Lower l ∨ (0x30 ≤ l ∧ l ≤ 0x39) ∨ l ∈ codes "+-.") := by
  have e : codes "+-." = [0x2B, 0x2D, 0x2E] := by decide
  simp [isAsciiAlphanumeric, isAsciiAlpha, isAsciiUpperAlpha, isAsciiLowerAlpha, isAsciiDigit] at h
  refine ⟨_, lower_char c (by omega), ?_⟩
  rw [e]
  unfold Lower
  simp only [List.mem_cons, List.not_mem_nil, or_false]
  split <;> omega

theorem scheme_snoc {b : List Nat} {l : Nat} (h : SchemeOk b) (hl : Lower l ∨ (0x30 ≤ l ∧ l ≤ 0x39) ∨ l ∈ codes "+-.") :
    SchemeOk (b ++ [l]) := by
  obtain ⟨a, r, rfl, ha, hr⟩ := h
  refine ⟨a, r ++ [l], rfl, ha, fun c hc => ?_⟩
  rcases List.mem_append.mp hc with hc | hc
  · exact hr c hc
  · obtain rfl := List.mem_singleton.mp hc; exact hl

theorem file_scheme : SchemeOk (codes "file") := by
  refine ⟨0x66, [0x69, 0x6C, 0x65], by decide, by unfold Lower; omega, ?_⟩
  intro c hc
  simp only [List.mem_cons, List.not_mem_nil, or_false] at hc
  unfold Lower
  omega

section
variable {x : Ctx} {s : St} (hc : CInv x) (hx : XInv x) (hs : TInv x s) (hv : VInv x s)

include hx hs hv in
theorem schemeStart_v (hst : s.state = .schemeStart) : VOk x (onSchemeStart x s (x.at s.pos)) := by
  have hlo := hs.lo
  have hhi := hs.hi
  unfold onSchemeStart
  by_cases ha : isAsciiAlpha (x.at s.pos) = true
  · rw [if_pos ha]
    obtain ⟨l, hl, hlow⟩ := lower_alpha ha
    rw [hl]
    have hin : s.pos < x.input.length := in_of fun h => by rw [h] at ha; exact absurd ha (by decide)
    refine vok_back hin ?_
    by_cases ho : x.override = none
    · rw [vn ho] at hv ⊢
      simp only [VN, hst] at hv ⊢
      exact ⟨hv.1, by rw [hv.2]; exact ⟨l, [], rfl, hlow, by simp⟩⟩
    · rw [vo ho] at hv ⊢
      simp only [VO, hst] at hv ⊢
      exact ⟨hv.1, by rw [hv.2]; exact ⟨l, [], rfl, hlow, by simp⟩⟩
  · rw [if_neg ha]
    by_cases ho : x.override = none
    · rw [if_pos ho]
      refine vok_back (by dsimp only; omega) ?_
      rw [vn ho] at hv ⊢
      simp only [VN, hst] at hv ⊢
      exact hv.1
    · rw [if_neg ho]
      intro _
      rw [vo ho] at hv
      simp only [VO, hst] at hv
      exact hv.1

theorem cannot_new {t : List Nat} (h : SchemeOk t) (hn : ¬ Special t) : ValidUrl { scheme := t, cannotBeBase := true, path := [[]] } where
  scheme := h
  username := by simp
  password := by simp
  host := by simp
  port := by simp
  query := by simp
  fragment := by simp
  special := fun hs => absurd hs hn
  file := fun _ => ⟨rfl, rfl, rfl⟩
  authority := by simp
  cannot := fun _ => ⟨rfl, [], rfl, by simp⟩
  path := fun h => by cases h

theorem afterScheme_v (ho : x.override = none) (hin : s.pos < x.input.length) {t : List Nat} (hu : s.url = { scheme := t })
    (ht : SchemeOk t) : VOk x (afterScheme x s) := by
  unfold afterScheme
  dsimp only
  by_cases hf : s.url.scheme = lit "file"
  · rw [if_pos hf]
    refine vok_back (by simpa using hin) ?_
    rw [vn ho]
    simp only [VN, badIf_url]
    right
    rw [hu] at hf ⊢
    dsimp only at hf
    rw [hf]; rfl
  · rw [if_neg hf]
    have hf' : t ≠ codes "file" := by rw [hu] at hf; exact hf
    by_cases hb : isSpecial s.url = true ∧ x.base.any (fun b => b.scheme == s.url.scheme) = true
    · rw [if_pos hb]
      refine vok_back hin ?_
      rw [vn ho]
      simp only [VN]
      obtain ⟨hb1, hb2⟩ := hb
      cases hbase : x.base with
      | none => rw [hbase] at hb2; simp at hb2
      | some b =>
        rw [hbase] at hb2
        simp only [Option.any_some, beq_iff_eq] at hb2
        have e : b.scheme = t := by rw [hb2, hu]
        refine ⟨b, rfl, by rw [e, hu], ?_, by rw [e]; exact hf'⟩
        rw [e, ← special_iff]
        simpa [isSpecial, hu] using hb1
    · rw [if_neg hb]
      by_cases hsp : isSpecial s.url = true
      · rw [if_pos hsp]
        refine vok_back hin ?_
        rw [vn ho]
        simp only [VN]
        exact ⟨t, hu, ht, hf'⟩
      · rw [if_neg hsp]
        have hns : ¬ Special t := by
          rw [← special_iff]; simpa [isSpecial, hu] using hsp
        split
        · rename_i hl
          have := hl.1
          simp only [Ctx.left] at this
          refine vok_back (by dsimp only; omega) ?_
          rw [vn ho]
          simp only [VN]
          exact ⟨t, hu, ht, hns⟩
        · refine vok_back hin ?_
          rw [vn ho]
          simp only [VN, hu, List.nil_append]
          exact ⟨cannot_new ht hns, trivial⟩

/-- A scheme of the same kind. -/
theorem protocol_v {u : Url} {b : List Nat} (h : ValidUrl u) (hb : SchemeOk b) (hr : schemeReturns u b = some false) :
    ValidUrl (if ({ u with scheme := b } : Url).port.isSome = true ∧ ({ u with scheme := b } : Url).port = defaultPort b then
      { u with scheme := b, port := none } else { u with scheme := b }) := by
  unfold schemeReturns at hr
  split at hr
  · simp at hr
  rename_i h1
  split at hr
  · simp at hr
  rename_i h2
  split at hr
  · simp at hr
  rename_i h3
  have hiff : Special u.scheme ↔ Special b := by
    rw [← special_iff, ← special_iff]
    cases ha : isSpecialScheme u.scheme <;> cases hb : isSpecialScheme b <;> simp [ha, hb] at h1 h2 ⊢
  have hne : u.scheme = codes "file" → u.host ≠ some .empty := by
    intro hf
    rw [if_pos (show u.scheme = lit "file" from hf)] at hr
    cases hh : u.host with
    | none => simp
    | some k => rw [hh] at hr; simp at hr; simpa using hr
  have hgood : ∀ k, GoodHost (Special u.scheme) k ↔ GoodHost (Special b) k := by
    intro k; cases k <;> simp [GoodHost, hiff]
  have hfile : b = codes "file" → u.username = [] ∧ u.password = [] ∧ u.port = none := by
    intro hf
    have := fun hh => h3 ⟨hh, hf⟩
    simp [includesCredentials] at this
    exact ⟨this.1.1, this.1.2, this.2⟩
  have hbase : ∀ p, (p = u.port ∨ p = none) → (∀ n, p = some n → (b, some n) ∉ specials) → ValidUrl { u with scheme := b, port := p } := by
    intro p hp hn
    refine ⟨hb, h.username, h.password, fun k hk => (hgood k).mp (h.host k hk), ?_, ?_, h.fragment, ?_, ?_, ?_, h.cannot, ?_⟩
    · intro n hpn
      refine ⟨?_, hn n hpn⟩
      rcases hp with hp | hp
      · exact (h.port n (by rw [← hp]; exact hpn)).1
      · rw [hp] at hpn; cases hpn
    · intro q hq c hcq
      rw [← hiff]; exact h.query q hq c hcq
    · intro hsp
      have h4 := h.special (hiff.mpr hsp)
      refine ⟨h4.1, h4.2.1, h4.2.2.1, fun _ => ?_⟩
      by_cases hf : u.scheme = codes "file"
      · exact hne hf
      · exact h4.2.2.2 hf
    · intro hf
      obtain ⟨g1, g2, g3⟩ := hfile hf
      refine ⟨g1, g2, ?_⟩
      rcases hp with hp | hp
      · exact hp.trans g3
      · exact hp
    · intro hh
      refine h.authority ?_
      rcases hh with hh | hh | hh
      · exact Or.inl hh
      · exact Or.inr (Or.inl hh)
      · rcases hp with hp | hp
        · exact Or.inr (Or.inr (by rw [← hp]; exact hh))
        · exact absurd hp hh
    · intro hcb
      have := h.path hcb
      rw [← hiff]; exact this
  split
  · exact hbase none (Or.inr rfl) (by simp)
  · rename_i hd
    refine hbase u.port (Or.inl rfl) fun n hn hmem => hd ⟨by simp [hn], ?_⟩
    rw [(default_iff b n).mpr hmem]; exact hn

include hx hs hv in
theorem scheme_v (hst : s.state = .scheme) : VOk x (onScheme x s (x.at s.pos)) := by
  have hlo := hs.lo
  have hhi := hs.hi
  unfold onScheme
  by_cases ha : (isAsciiAlphanumeric (x.at s.pos) || x.at s.pos == 0x2B || x.at s.pos == 0x2D || x.at s.pos == 0x2E) = true
  · rw [if_pos ha]
    obtain ⟨l, hl, hlow⟩ := lower_scheme ha
    rw [hl]
    have hin : s.pos < x.input.length := in_of fun h => by rw [h] at ha; exact absurd ha (by decide)
    refine vok_back hin ?_
    by_cases ho : x.override = none
    · rw [vn ho] at hv ⊢
      simp only [VN, hst] at hv ⊢
      exact ⟨hv.1, scheme_snoc hv.2 hlow⟩
    · rw [vo ho] at hv ⊢
      simp only [VO, hst] at hv ⊢
      exact ⟨hv.1, scheme_snoc hv.2 hlow⟩
  · rw [if_neg ha]
    by_cases h3 : x.at s.pos = 0x3A
    · rw [if_pos h3]
      by_cases ho : x.override = none
      · rw [if_neg (by simp [ho])]
        rw [vn ho] at hv
        simp only [VN, hst] at hv
        refine afterScheme_v ho (in_of (by dsimp only; rw [h3]; omega)) (t := s.buffer) ?_ hv.2
        rw [hv.1]
      · rw [if_pos ho]
        rw [vo ho] at hv
        simp only [VO, hst] at hv
        split
        · trivial
        · exact fun _ => hv.1
        · rename_i hr
          intro _
          exact protocol_v hv.1 hv.2 hr
    · rw [if_neg h3]
      by_cases ho : x.override = none
      · rw [if_pos ho]
        refine vok_back (by dsimp only; omega) ?_
        rw [vn ho] at hv ⊢
        simp only [VN, hst] at hv ⊢
        exact hv.1
      · rw [if_neg ho]
        intro _
        rw [vo ho] at hv
        simp only [VO, hst] at hv
        exact hv.1

include hx hs hv in
theorem noScheme_v (ho : x.override = none) (hst : s.state = .noScheme) : VOk x (onNoScheme x s (x.at s.pos)) := by
  have hlo := hs.lo
  have hhi := hs.hi
  rw [vn ho] at hv
  simp only [VN, hst] at hv
  unfold onNoScheme
  split
  · exact fun h => absurd ho h
  · rename_i b hb
    have vb := hx.base b hb
    split
    · exact fun h => absurd ho h
    · split
      · rename_i h
        refine vok_back (in_of (by dsimp only; rw [h.2]; omega)) ?_
        rw [vn ho]
        simp only [VN, hv]
        have hns : ¬ Special b.scheme := fun hh => by have := (vb.special hh).2.2.1; rw [h.1] at this; cases this
        exact {
          scheme := vb.scheme
          username := by simp
          password := by simp
          host := by simp
          port := by simp
          query := vb.query
          fragment := by simp
          special := fun hs => absurd hs hns
          file := fun _ => ⟨rfl, rfl, rfl⟩
          authority := by simp
          cannot := fun _ => ⟨rfl, (vb.cannot h.1).2⟩
          path := fun h => by cases h }
      · rename_i h1 h2
        have hcb : b.cannotBeBase = false := by
          cases hcb : b.cannotBeBase with
          | false => rfl
          | true => exact absurd ⟨hcb, Classical.byContradiction fun h => h1 ⟨hcb, h⟩⟩ h2
        split
        · rename_i hf
          refine vok_back (by dsimp only; omega) ?_
          rw [vn ho]
          simp only [VN]
          exact ⟨b, hb, hcb, hf, Or.inl hv⟩
        · refine vok_back (by dsimp only; omega) ?_
          rw [vn ho]
          simp only [VN]
          exact Or.inl hv

include hx hs hv in
theorem specialRelative_v (ho : x.override = none) (hst : s.state = .specialRelativeOrAuthority) :
    VOk x (onSpecialRelativeOrAuthority x s (x.at s.pos)) := by
  have hlo := hs.lo
  have hhi := hs.hi
  rw [vn ho] at hv
  simp only [VN, hst] at hv
  obtain ⟨b, hb, hu, hsp, hf⟩ := hv
  have vb := hx.base b hb
  unfold onSpecialRelativeOrAuthority
  split
  · rename_i h
    have := h.2.1
    simp only [Ctx.left] at this
    refine vok_back (by dsimp only; omega) ?_
    rw [vn ho]
    simp only [VN]
    exact ⟨_, hu, vb.scheme, hf⟩
  · refine vok_back (by dsimp only; omega) ?_
    rw [vn ho]
    simp only [VN]
    exact ⟨b, hb, (vb.special hsp).2.2.1, hf, Or.inr hu⟩

theorem core_new {t : List Nat} (h : SchemeOk t) (hn : ¬ Special t) : Core { scheme := t } where
  scheme := h
  username := by simp
  password := by simp
  host := by simp
  port := by simp
  query := by simp
  fragment := by simp
  special := fun hs => absurd hs hn
  file := fun _ => ⟨rfl, rfl, rfl⟩
  authority := by simp
  path := by simp
  base := rfl

include hx hs hv in
theorem pathOrAuthority_v (ho : x.override = none) (hst : s.state = .pathOrAuthority) : VOk x (onPathOrAuthority s (x.at s.pos)) := by
  have hlo := hs.lo
  have hhi := hs.hi
  have hsh := hs.shape
  simp only [Shape, hst] at hsh
  rw [vn ho] at hv
  simp only [VN, hst] at hv
  obtain ⟨t, hu, ht, hns⟩ := hv
  unfold onPathOrAuthority
  split
  · rename_i h
    refine vok_back (in_of (by dsimp only; rw [h]; omega)) ?_
    rw [vn ho]
    simp only [VN]
    refine ⟨by rw [hu]; exact fresh_of ht, ?_, fun _ => by rw [hu]; exact ⟨rfl, rfl⟩, fun h => absurd hsh h⟩
    rw [hu]
    exact fun h => hns (by rw [show t = codes "file" from h]; exact file_special)
  · refine vok_back (by dsimp only; omega) ?_
    rw [vn ho]
    simp only [VN, hu, hsh]
    exact ⟨core_new ht hns, by intro c hc; cases hc⟩

/-- The record of a base without its fragment. -/
theorem based {b : Url} (hb : b.cannotBeBase = false) (q f : Option (List Nat)) (ps : List (List Nat)) :
    Url.mk b.scheme b.username b.password b.host b.port ps q f false = { b with path := ps, query := q, fragment := f } := by
  cases b; simp_all

include hx hs hv in
theorem relative_v (ho : x.override = none) (hst : s.state = .relative) : VOk x (onRelative x s (x.at s.pos)) := by
  have hlo := hs.lo
  have hhi := hs.hi
  have hsh := hs.shape
  simp only [Shape, hst] at hsh
  rw [vn ho] at hv
  simp only [VN, hst] at hv
  obtain ⟨b, hb, hcb, hf, hu⟩ := hv
  have vb := hx.base b hb
  have hu' : ({ s.url with scheme := b.scheme } : Url) = { scheme := b.scheme } := by
    rcases hu with hu | hu <;> rw [hu]
  have hcore := valid_core vb hcb
  have huf : s.url.fragment = none ∧ s.url.cannotBeBase = false := by
    rcases hu with hu | hu <;> rw [hu] <;> exact ⟨rfl, rfl⟩
  unfold onRelative
  rw [hb]
  dsimp only
  rw [hu']
  split
  · rename_i h
    refine vok_back (in_of (by dsimp only; rw [h]; omega)) ?_
    rw [vn ho]
    simp only [VN]
    exact ⟨b, hb, hcb, hf, rfl⟩
  · split
    · rename_i h
      refine vok_back (in_of (by show x.at s.pos ≠ _; rw [h.2]; omega)) ?_
      rw [vn ho]
      simp only [VN, bad_url]
      exact ⟨b, hb, hcb, hf, rfl⟩
    · split
      · rename_i h
        refine vok_back (in_of (by dsimp only; rw [h]; omega)) ?_
        rw [vn ho]
        simp only [VN, huf]
        rw [based hcb]
        exact valid_setFragment (valid_setQuery vb (some []) (by intro t ht; injection ht with ht; subst ht; intro c hc; cases hc)) none (by simp)
      · split
        · rename_i h
          refine vok_back (in_of (by dsimp only; rw [h]; omega)) ?_
          rw [vn ho]
          simp only [VN, huf]
          rw [based hcb]
          exact valid_setFragment vb (some []) (by intro t ht; injection ht with ht; subst ht; intro c hc; cases hc)
        · split
          · refine vok_back (by dsimp only; omega) ?_
            rw [vn ho]
            simp only [VN, hsh.1, huf]
            rw [based hcb]
            refine ⟨?_, by intro c hc; cases hc⟩
            exact ⟨hcore.scheme, hcore.username, hcore.password, hcore.host, hcore.port, by simp, by simp, hcore.special, hcore.file,
              hcore.authority, fun p hp => hcore.path p ((List.dropLast_sublist _).mem hp), hcore.base⟩
          · rename_i h
            have := at_nl hx hlo (Classical.byContradiction h)
            refine ⟨fun hh => ?_, fun _ => ?_⟩
            · dsimp only at hh; omega
            · simp only [huf]
              rw [based hcb]
              exact valid_setFragment vb none (by simp)

include hx hs hv in
theorem relativeSlash_v (ho : x.override = none) (hst : s.state = .relativeSlash) : VOk x (onRelativeSlash x s (x.at s.pos)) := by
  have hlo := hs.lo
  have hhi := hs.hi
  have hsh := hs.shape
  simp only [Shape, hst] at hsh
  rw [vn ho] at hv
  simp only [VN, hst] at hv
  obtain ⟨b, hb, hcb, hf, hu⟩ := hv
  have vb := hx.base b hb
  have hcore := valid_core vb hcb
  unfold onRelativeSlash
  split
  · rename_i h
    refine vok_back (in_of (by simp only [badIf_pos]; rcases h.2 with h | h <;> rw [h] <;> omega)) ?_
    rw [vn ho]
    simp only [VN, badIf_url]
    exact ⟨_, hu, vb.scheme, hf⟩
  · split
    · rename_i h
      refine vok_back (in_of (by dsimp only; rw [h]; omega)) ?_
      rw [vn ho]
      simp only [VN]
      exact ⟨by rw [hu]; exact fresh_of vb.scheme, by rw [hu]; exact hf, fun _ => by rw [hu]; exact ⟨rfl, rfl⟩,
        fun h => absurd hsh.1 h⟩
    · rw [hb]
      refine vok_back (by dsimp only; omega) ?_
      rw [vn ho]
      simp only [VN, hu, hsh.1]
      refine ⟨⟨hcore.scheme, hcore.username, hcore.password, hcore.host, hcore.port, by simp, by simp, hcore.special, hcore.file,
              hcore.authority, by simp, rfl⟩, by intro c hc; cases hc⟩

include hs hv in
theorem authoritySlashes_v (ho : x.override = none) (hst : s.state = .specialAuthoritySlashes) :
    VOk x (onSpecialAuthoritySlashes x s (x.at s.pos)) := by
  have hlo := hs.lo
  have hhi := hs.hi
  rw [vn ho] at hv
  simp only [VN, hst] at hv
  unfold onSpecialAuthoritySlashes
  split
  · rename_i h
    have := h.2.1
    simp only [Ctx.left] at this
    refine vok_back (by dsimp only; omega) ?_
    rw [vn ho]
    simp only [VN]
    exact hv
  · refine vok_back (by dsimp only; omega) ?_
    rw [vn ho]
    simp only [VN]
    exact hv

include hs hv in
theorem ignoreSlashes_v (ho : x.override = none) (hst : s.state = .specialAuthorityIgnoreSlashes) :
    VOk x (onSpecialAuthorityIgnoreSlashes s (x.at s.pos)) := by
  have hlo := hs.lo
  have hhi := hs.hi
  have hsh := hs.shape
  simp only [Shape, hst] at hsh
  rw [vn ho] at hv
  simp only [VN, hst] at hv
  unfold onSpecialAuthorityIgnoreSlashes
  split
  · refine vok_back (by dsimp only; omega) ?_
    rw [vn ho]
    simp only [VN]
    obtain ⟨t, hu, ht, hf⟩ := hv
    exact ⟨by rw [hu]; exact fresh_of ht, by rw [hu]; exact hf, fun _ => by rw [hu]; exact ⟨rfl, rfl⟩, fun h => absurd hsh h⟩
  · rename_i h
    refine vok_back (in_of (by rcases Classical.byContradiction h with h | h <;> simp only [bad_pos] <;> rw [h] <;> omega)) ?_
    rw [vn ho]
    simp only [VN, bad_st, hst]
    exact hv

theorem credentials_clean (fuel : Nat) (hf : 2 ≤ fuel) : ∀ (b : List Nat) (seen : Bool) (u p u' p' : List Nat) (seen' : Bool),
    (∀ c ∈ b, IsScalar c) → (∀ c ∈ u, ¬ InSet .userinfo c) → (∀ c ∈ p, ¬ InSet .userinfo c) →
    credentials fuel b seen u p = .stop (u', p', seen') → (∀ c ∈ u', ¬ InSet .userinfo c) ∧ (∀ c ∈ p', ¬ InSet .userinfo c)
  | [], seen, u, p, u', p', seen', _, hu, hp, h => by
    rw [credentials] at h
    injection h with h; injection h with h1 h; injection h with h2 h
    subst h1; subst h2; exact ⟨hu, hp⟩
  | c :: b, seen, u, p, u', p', seen', hb, hu, hp, h => by
    have hb' : ∀ c ∈ b, IsScalar c := fun x hx => hb x (by simp [hx])
    rw [credentials] at h
    split at h
    · exact credentials_clean fuel hf b _ _ _ _ _ _ hb' hu hp h
    · have := cp_enc c (hb c (by simp)) .userinfo fuel hf
      rw [show setOf .userinfo = isUserinfoSet from rfl] at this
      rw [this] at h
      dsimp only at h
      have hcl := enc8_clean .userinfo (by decide) [c] (by simpa using hb c (by simp))
      have app : ∀ w : List Nat, (∀ c ∈ w, ¬ InSet .userinfo c) → ∀ d ∈ w ++ enc8 .userinfo [c], ¬ InSet .userinfo d := by
        intro w hw d hd
        rcases List.mem_append.mp hd with hd | hd
        · exact hw d hd
        · exact (hcl d hd).1
      split at h
      · exact credentials_clean fuel hf b _ _ _ _ _ _ hb' hu (app p hp) h
      · exact credentials_clean fuel hf b _ _ _ _ _ _ hb' (app u hu) hp h

include hc hx hs hv in
theorem authority_v (ho : x.override = none) (hst : s.state = .authority) : VOk x (onAuthority x s (x.at s.pos)) := by
  have hlo := hs.lo
  have hhi := hs.hi
  have hsh := hs.shape
  simp only [Shape, hst] at hsh
  rw [vn ho] at hv
  simp only [VN, hst] at hv
  obtain ⟨hfr, hf, hat, hbuf⟩ := hv
  unfold onAuthority
  split
  · rename_i h40
    have h41 : ∀ c ∈ lit "%40", c < 0x80 := by decide
    have hb : ∀ c ∈ (if s.atSignSeen then lit "%40" ++ s.buffer else s.buffer), IsScalar c := by
      split
      · intro c hc
        rcases List.mem_append.mp hc with hc | hc
        · exact scalar_small (h41 c hc)
        · exact hs.scal c hc
      · exact hs.scal
    have hfu : 2 ≤ x.fuel := by have := hc.fuel; omega
    obtain ⟨⟨user, pass, seen⟩, hr⟩ := credentials_stop x.fuel hfu _ s.passwordTokenSeen s.url.username s.url.password hb
    have hcl := credentials_clean x.fuel hfu _ _ _ _ _ _ _ hb hfr.username hfr.password hr
    dsimp only
    rw [hr]
    dsimp only
    refine vok_back (in_of (by simp only [bad_pos]; rw [h40]; omega)) ?_
    rw [vn ho]
    simp only [VN, bad_st, hst]
    refine ⟨⟨hfr.scheme, hcl.1, hcl.2, hfr.host, hfr.port, hfr.path, hfr.query, hfr.fragment, hfr.base⟩, hf, by simp, by simp⟩
  · split
    · rename_i he
      split
      · exact fun h => absurd ho h
      · rename_i hne
        refine vok_back (by dsimp only; omega) ?_
        rw [vn ho]
        simp only [VN]
        refine ⟨hfr, hf, fun hcred _ => ?_⟩
        have hseen : s.atSignSeen = true := by
          cases h : s.atSignSeen with
          | true => rfl
          | false =>
            obtain ⟨h1, h2⟩ := hat h
            rcases hcred with h | h
            · exact absurd h1 h
            · exact absurd h2 h
        have := hbuf fun h => hne ⟨hseen, h⟩
        rw [show s.pos - ((s.buffer.length : Int) + 1) + 1 = s.pos - s.buffer.length by omega]
        exact this
    · rename_i he
      have hin : s.pos < x.input.length := in_of fun h => by rw [h] at he; simp [endsAuthority] at he
      refine vok_back hin ?_
      rw [vn ho]
      simp only [VN, hst]
      refine ⟨hfr, hf, hat, fun _ => ?_⟩
      have e : s.pos + 1 - ((s.buffer ++ [x.at s.pos]).length : Int) = s.pos - s.buffer.length := by
        rw [List.length_append, List.length_singleton]; omega
      rw [e]
      by_cases hb : s.buffer = []
      · simp only [hb, List.length_nil, Nat.cast_zero, Int.sub_zero]
        simpa using he
      · exact hbuf hb

/-- `hostOf` with a continuation that is fine for every host. -/
theorem hostOf_v {k : St → Step} (hc : CInv x) (sc : ∀ c ∈ s.buffer, IsScalar c) (hl : s.buffer.length ≤ x.input.length + 1)
    (hf : x.override ≠ none → ValidUrl s.url)
    (hk : ∀ h ec, h ≠ .null → HostResult x.toAscii s.buffer (!isSpecial s.url) none h →
      VOk x (k { s with url := { s.url with host := some h }, buffer := [], ec := ec })) :
    VOk x (hostOf x s k) := by
  unfold hostOf
  rcases host_ends x.toAscii s.buffer sc (!isSpecial s.url) none x.fuel (by have := hc.fuel; omega) with h | ⟨h, ec, h1, h2⟩
  · rw [h]; trivial
  · rw [h1]
    dsimp only
    cases ec with
    | none =>
      rw [if_neg (show ¬ (Option.isSome (none : Ec) = true) by decide)]
      split
      · exact hf
      · rename_i hn; exact hk h s.ec hn h2
    | some e =>
      rw [if_pos (show Option.isSome (some e : Ec) = true by rfl)]
      split
      · exact hf
      · rename_i hn; exact hk h (some e) hn h2

theorem valid_setHost {u : Url} (h : ValidUrl u) (hb : u.cannotBeBase = false) (k : Host) (hk : GoodHost (Special u.scheme) k)
    (he : u.scheme ≠ codes "file" → k ≠ .empty) (ha : u.username ≠ [] ∨ u.password ≠ [] ∨ u.port ≠ none → ¬ Blank k) :
    ValidUrl { u with host := some k } where
  scheme := h.scheme
  username := h.username
  password := h.password
  host := fun h hh => by cases hh; exact hk
  port := h.port
  query := h.query
  fragment := h.fragment
  special := fun hs => ⟨by simp, (h.special hs).2.1, hb, fun hh hhh => he hh (by injection hhh)⟩
  file := h.file
  authority := fun hh => ⟨k, rfl, ha hh⟩
  cannot := fun hh => by dsimp only at hh; rw [hb] at hh; cases hh
  path := h.path

include hc hx hs hv in
theorem hostname_none (ho : x.override = none) (hst : s.state = .host ∨ s.state = .hostname) : VOk x (onHostname x s (x.at s.pos)) := by
  have hlo := hs.lo
  have hhi := hs.hi
  have hsh : (s.buffer.length : Int) ≤ s.pos := by
    have := hs.shape
    rcases hst with h | h <;> simp only [Shape, h] at this <;> exact this.1
  rw [vn ho] at hv
  have hv : Fresh s.url ∧ s.url.scheme ≠ codes "file" ∧
      (s.url.username ≠ [] ∨ s.url.password ≠ [] → s.buffer = [] → endsAuthority s.url (x.at s.pos) = false) := by
    rcases hst with h | h <;> simp only [VN, h] at hv <;> exact hv
  obtain ⟨hfr, hf, hcred⟩ := hv
  unfold onHostname
  have hno : ¬ (x.override ≠ none ∧ s.url.scheme = lit "file") := fun h => h.1 ho
  rw [if_neg hno]
  dsimp only
  split
  · rename_i h3
    split
    · exact fun h => absurd ho h
    · rename_i hb
      refine hostOf_v hc hs.scal (by omega) (fun h => absurd ho h) fun h ec hn hr => ?_
      obtain ⟨g1, g2, g3⟩ := result_good hx.ascii hs.scal hr hn
      dsimp only
      rw [if_neg (by rw [ho]; simp)]
      refine vok_back (in_of (by dsimp only; rw [h3.1]; omega)) ?_
      rw [vn ho]
      simp only [VN]
      exact ⟨hfr.core (fun h => absurd h hf) h g1 (fun _ => g2) (fun _ => g3 hb), hf, h, rfl, g3 hb⟩
  · split
    · rename_i he
      split
      · exact fun h => absurd ho h
      · split
        · exact fun h => absurd ho h
        · refine hostOf_v hc hs.scal (by dsimp only; omega) (fun h => absurd ho h) fun h ec hn hr => ?_
          obtain ⟨g1, g2, g3⟩ := result_good hx.ascii hs.scal hr hn
          dsimp only
          rw [if_neg (by simp [ho])]
          refine vok_back (by dsimp only; omega) ?_
          rw [vn ho]
          simp only [VN]
          refine hfr.core (fun h => absurd h hf) h g1 (fun _ => g2) (fun hh => g3 fun hb => ?_)
          have := hcred hh hb
          rw [he] at this; cases this
    · rename_i he
      have hin : s.pos < x.input.length := in_of fun h => by rw [h] at he; simp [endsAuthority] at he
      have key : ∀ b, VOk x (.cont { s with insideBrackets := b, buffer := s.buffer ++ [x.at s.pos] }) := by
        intro b
        refine vok_back hin ?_
        rw [vn ho]
        rcases hst with h | h <;> simp only [VN, h] <;> exact ⟨hfr, hf, fun _ hh => by simp at hh⟩
      split
      · split
        · first | exact key false | exact key true | exact key s.insideBrackets
        · first | exact key false | exact key true | exact key s.insideBrackets
      · split
        · first | exact key false | exact key true | exact key s.insideBrackets
        · first | exact key false | exact key true | exact key s.insideBrackets

include hc hx hs hv in
theorem hostname_some (ho : x.override ≠ none) (hst : s.state = .host ∨ s.state = .hostname) : VOk x (onHostname x s (x.at s.pos)) := by
  have hlo := hs.lo
  have hhi := hs.hi
  have hsh : (s.buffer.length : Int) ≤ s.pos ∧ (x.override ≠ none ∧ s.url.scheme = lit "file" → s.buffer = []) := by
    have := hs.shape
    rcases hst with h | h <;> simpa only [Shape, h] using this
  rw [vo ho] at hv
  have hv : ValidUrl s.url ∧ s.url.cannotBeBase = false := by
    rcases hst with h | h <;> simp only [VO, h] at hv <;> exact hv
  obtain ⟨hval, hcb⟩ := hv
  unfold onHostname
  by_cases hof : x.override ≠ none ∧ s.url.scheme = lit "file"
  · rw [if_pos hof]
    dsimp only
    have hb := hsh.2 hof
    have hsp : isSpecial s.url = true := by rw [isSpecial, hof.2]; decide
    simp only [hb, hsp, if_true, true_and, and_true]
    split
    · exact fun _ => hval
    · split
      · exact fun _ => hval
      · have key : ∀ b, VOk x (.cont { s with pos := s.pos - 1, state := .fileHost, insideBrackets := b, buffer := [] ++ [x.at s.pos] }) := by
          intro b
          refine vok_back (by dsimp only; omega) ?_
          rw [vo ho]
          simp only [VO]
          exact ⟨hval, hof.2⟩
        split
        · split
          · first | exact key false | exact key true | exact key s.insideBrackets
          · first | exact key false | exact key true | exact key s.insideBrackets
        · split
          · first | exact key false | exact key true | exact key s.insideBrackets
          · first | exact key false | exact key true | exact key s.insideBrackets
  · rw [if_neg hof]
    dsimp only
    have hf : s.url.scheme ≠ codes "file" := fun h => hof ⟨ho, h⟩
    split
    · rename_i h3
      split
      · exact fun _ => hval
      · rename_i hb
        refine hostOf_v hc hs.scal (by omega) (fun _ => hval) fun h ec hn hr => ?_
        obtain ⟨g1, g2, g3⟩ := result_good hx.ascii hs.scal hr hn
        have hval' : ValidUrl { s.url with host := some h } := valid_setHost hval hcb h g1 (fun _ => g2) (fun _ => g3 hb)
        dsimp only
        split
        · exact fun _ => hval'
        · refine vok_back (in_of (by dsimp only; rw [h3.1]; omega)) ?_
          rw [vo ho]
          simp only [VO]
          exact ⟨hval', hf, h, rfl, g3 hb⟩
    · split
      · split
        · exact fun _ => hval
        · split
          · exact fun _ => hval
          · rename_i hno
            refine hostOf_v hc hs.scal (by dsimp only; omega) (fun _ => hval) fun h ec hn hr => ?_
            obtain ⟨g1, g2, g3⟩ := result_good hx.ascii hs.scal hr hn
            dsimp only
            intro _
            refine valid_setHost hval hcb h g1 (fun _ => g2) (fun hh => g3 fun hb => hno ⟨ho, hb, ?_⟩)
            simp only [includesCredentials, Bool.or_eq_true, Bool.not_eq_true']
            rcases hh with hh | hh | hh
            · exact Or.inl (Or.inl (by simpa using hh))
            · exact Or.inl (Or.inr (by simpa using hh))
            · exact Or.inr (by cases hp : s.url.port with | none => exact absurd hp hh | some _ => rfl)
      · rename_i he
        have hin : s.pos < x.input.length := in_of fun h => by rw [h] at he; simp [endsAuthority] at he
        have key : ∀ b, VOk x (.cont { s with insideBrackets := b, buffer := s.buffer ++ [x.at s.pos] }) := by
          intro b
          refine vok_back hin ?_
          rw [vo ho]
          rcases hst with h | h <;> simp only [VO, h] <;> exact ⟨hval, hcb⟩
        split
        · split
          · first | exact key false | exact key true | exact key s.insideBrackets
          · first | exact key false | exact key true | exact key s.insideBrackets
        · split
          · first | exact key false | exact key true | exact key s.insideBrackets
          · first | exact key false | exact key true | exact key s.insideBrackets

/-- The port that is stored. -/
theorem port_good {t b : List Nat} (h : ¬ 0xFFFF ≤ portOf b) :
    ∀ p, (if some (portOf b) = defaultPort t then none else some (portOf b)) = some p → p ≤ 65535 ∧ (t, some p) ∉ specials := by
  intro p hp
  split at hp
  · cases hp
  · rename_i hd
    injection hp with hp
    subst hp
    exact ⟨by omega, fun hm => hd ((default_iff t _).mpr hm).symm⟩

theorem core_setPort {u : Url} (h : Core u) (hf : u.scheme ≠ codes "file") (hh : ∃ k, u.host = some k ∧ ¬ Blank k) (p : Option Nat)
    (hp : ∀ q, p = some q → q ≤ 65535 ∧ (u.scheme, some q) ∉ specials) : Core { u with port := p } :=
  ⟨h.scheme, h.username, h.password, h.host, hp, h.query, h.fragment, h.special, fun hh => absurd hh hf, fun _ => hh, h.path, h.base⟩

theorem valid_setPort {u : Url} (h : ValidUrl u) (hf : u.scheme ≠ codes "file") (hh : ∃ k, u.host = some k ∧ ¬ Blank k) (p : Option Nat)
    (hp : ∀ q, p = some q → q ≤ 65535 ∧ (u.scheme, some q) ∉ specials) : ValidUrl { u with port := p } :=
  ⟨h.scheme, h.username, h.password, h.host, hp, h.query, h.fragment, h.special, fun hh => absurd hh hf, fun _ => hh, h.cannot, h.path⟩

include hs hv in
theorem port_v (hst : s.state = .port) : VOk x (onPort x s (x.at s.pos)) := by
  have hlo := hs.lo
  have hhi := hs.hi
  have hval : x.override ≠ none → ValidUrl s.url := fun ho => by
    rw [vo ho] at hv; simp only [VO, hst] at hv; exact hv.1
  have hh : s.url.scheme ≠ codes "file" ∧ ∃ h, s.url.host = some h ∧ ¬ Blank h := by
    by_cases ho : x.override = none
    · rw [vn ho] at hv; simp only [VN, hst] at hv; exact hv.2
    · rw [vo ho] at hv; simp only [VO, hst] at hv; exact hv.2
  have hcore : x.override = none → Core s.url := fun ho => by
    rw [vn ho] at hv; simp only [VN, hst] at hv; exact hv.1
  unfold onPort
  split
  · rename_i hd
    have hin : s.pos < x.input.length := in_of fun h => by rw [h] at hd; exact absurd hd (by decide)
    refine vok_back hin ?_
    by_cases ho : x.override = none
    · rw [vn ho] at hv ⊢; simp only [VN, hst] at hv ⊢; exact hv
    · rw [vo ho] at hv ⊢; simp only [VO, hst] at hv ⊢; exact hv
  · split
    · split
      · exact hval
      · rename_i hp
        dsimp only
        by_cases hb : s.buffer = []
        · rw [if_neg (show ¬ (s.buffer ≠ []) by simp [hb])]
          split
          · exact hval
          · rename_i ho
            have ho : x.override = none := Classical.byContradiction ho
            refine vok_back (by dsimp only; omega) ?_
            rw [vn ho]
            simp only [VN]
            exact hcore ho
        · rw [if_pos hb]
          have hg := port_good (t := s.url.scheme) (b := s.buffer) fun h => hp ⟨hb, Or.inr h⟩
          split
          · exact fun ho => valid_setPort (hval ho) hh.1 hh.2 _ hg
          · rename_i ho
            have ho : x.override = none := Classical.byContradiction ho
            refine vok_back (by dsimp only; omega) ?_
            rw [vn ho]
            simp only [VN]
            exact core_setPort (hcore ho) hh.1 hh.2 _ hg
    · exact hval

theorem file_core : Core { scheme := codes "file", host := some .empty } where
  scheme := file_scheme
  username := by simp
  password := by simp
  host := fun h hh => by cases hh; exact file_special
  port := by simp
  query := by simp
  fragment := by simp
  special := fun _ => ⟨by simp, fun h => absurd rfl h⟩
  file := fun _ => ⟨rfl, rfl, rfl⟩
  authority := by simp
  path := by simp
  base := rfl

/-- The record of a `file` base without its fragment. -/
theorem file_based {b : Url} (h : ValidUrl b) (hf : b.scheme = codes "file") (q f : Option (List Nat)) (ps : List (List Nat)) :
    Url.mk (codes "file") [] [] b.host none ps q f false = { b with path := ps, query := q, fragment := f } := by
  obtain ⟨h1, h2, h3⟩ := h.file hf
  have h4 := (h.special (hf ▸ file_special)).2.2.1
  cases b; simp_all

include hx hs hv in
theorem file_v (ho : x.override = none) (hst : s.state = .file) : VOk x (onFile x s (x.at s.pos)) := by
  have hlo := hs.lo
  have hhi := hs.hi
  have hsh := hs.shape
  simp only [Shape, hst] at hsh
  rw [vn ho] at hv
  simp only [VN, hst] at hv
  have hu : s.url.username = [] ∧ s.url.password = [] ∧ s.url.port = none ∧ s.url.path = [] ∧ s.url.query = none ∧
      s.url.fragment = none ∧ s.url.cannotBeBase = false := by
    rcases hv with h | h <;> rw [h] <;> exact ⟨rfl, rfl, rfl, rfl, rfl, rfl, rfl⟩
  have e : lit "file" = codes "file" := rfl
  have nil : SegOk s.url [] := by intro c hc; cases hc
  unfold onFile
  dsimp only
  split
  · rename_i h
    refine vok_back (in_of (by simp only [badIf_pos]; rcases h with h | h <;> rw [h] <;> omega)) ?_
    rw [vn ho]
    simp only [VN, badIf_url, hu, e]
  · have plain : VOk x (.cont { s with url := { s.url with scheme := lit "file", host := some .empty }, state := .path, pos := s.pos - 1 }) := by
      refine vok_back (by dsimp only; omega) ?_
      rw [vn ho]
      simp only [VN, hu, hsh, e]
      exact ⟨file_core, by intro c hc; cases hc⟩
    split
    · exact plain
    · rename_i b hb
      have vb := hx.base b hb
      split
      · rename_i hbf
        have hcb := (vb.special (by rw [hbf]; exact file_special)).2.2.1
        have hcore := valid_core vb hcb
        split
        · rename_i h
          refine vok_back (in_of (by dsimp only; rw [h]; omega)) ?_
          rw [vn ho]
          simp only [VN, hu, e]
          rw [file_based vb hbf]
          exact valid_setFragment (valid_setQuery vb (some []) (by intro t ht; injection ht with ht; subst ht; intro c hc; cases hc)) none (by simp)
        · split
          · rename_i h
            refine vok_back (in_of (by dsimp only; rw [h]; omega)) ?_
            rw [vn ho]
            simp only [VN, hu, e]
            rw [file_based vb hbf]
            exact valid_setFragment vb (some []) (by intro t ht; injection ht with ht; subst ht; intro c hc; cases hc)
          · split
            · have sub : ∀ ps : List (List Nat), (∀ p ∈ ps, p ∈ b.path) → Core { b with path := ps, query := none, fragment := none } := by
                intro ps hps
                exact ⟨hcore.scheme, hcore.username, hcore.password, hcore.host, hcore.port, by simp, by simp, hcore.special, hcore.file,
                  hcore.authority, fun p hp => hcore.path p (hps p hp), hcore.base⟩
              split
              · refine vok_back (by dsimp only; omega) ?_
                rw [vn ho]
                simp only [VN, hu, hsh, e]
                rw [file_based vb hbf]
                obtain ⟨ps, h1, h2⟩ := shorten_path { b with query := none, fragment := none }
                refine ⟨?_, by intro c hc; cases hc⟩
                have : ({ b with path := b.path, query := none, fragment := none } : Url) = { b with query := none, fragment := none } := rfl
                rw [this, h1]
                exact sub ps h2
              · refine vok_back (by simp only [bad_pos]; omega) ?_
                rw [vn ho]
                simp only [VN, hu, bad_buffer, hsh, e]
                rw [file_based vb hbf]
                exact ⟨sub [] (by simp), by intro c hc; cases hc⟩
            · rename_i h
              have := at_nl hx hlo (Classical.byContradiction h)
              refine ⟨fun hh => ?_, fun _ => ?_⟩
              · dsimp only at hh; omega
              · simp only [hu, e]
                rw [file_based vb hbf]
                exact valid_setFragment vb none (by simp)
      · exact plain

include hx hs hv in
theorem fileSlash_v (ho : x.override = none) (hst : s.state = .fileSlash) : VOk x (onFileSlash x s (x.at s.pos)) := by
  have hlo := hs.lo
  have hhi := hs.hi
  have hsh := hs.shape
  simp only [Shape, hst] at hsh
  rw [vn ho] at hv
  simp only [VN, hst] at hv
  unfold onFileSlash
  split
  · rename_i h
    refine vok_back (in_of (by simp only [badIf_pos]; rcases h with h | h <;> rw [h] <;> omega)) ?_
    rw [vn ho]
    simp only [VN, badIf_url, hv]
  · have plain : VOk x (.cont { s with state := .path, pos := s.pos - 1 }) := by
      refine vok_back (by dsimp only; omega) ?_
      rw [vn ho]
      simp only [VN, hsh, hv]
      exact ⟨file_core, by intro c hc; cases hc⟩
    split
    · exact plain
    · rename_i b hb
      have vb := hx.base b hb
      split
      · rename_i hbf
        have hcb := (vb.special (by rw [hbf]; exact file_special)).2.2.1
        have hcore := valid_core vb hcb
        refine vok_back (by dsimp only; omega) ?_
        rw [vn ho]
        simp only [VN, hsh, hv]
        have key : ∀ ps : List (List Nat), (∀ p ∈ ps, p ∈ b.path) → Core { scheme := codes "file", host := b.host, path := ps } := by
          intro ps hps
          have := file_based vb hbf none none ps
          rw [this]
          exact ⟨hcore.scheme, hcore.username, hcore.password, hcore.host, hcore.port, by simp, by simp, hcore.special, hcore.file,
                  hcore.authority, fun p hp => hcore.path p (hps p hp), hcore.base⟩
        refine ⟨?_, by intro c hc; cases hc⟩
        split
        · rename_i hh
          refine key _ fun p hp => ?_
          cases hbp : b.path with
          | nil => exact absurd hbp hh.2.1
          | cons q qs => rw [hbp] at hp; simp at hp; simp [hp]
        · exact key [] (by simp)
      · exact plain

/-- Hosts of `file` URLs. -/
theorem valid_setFileHost {u : Url} (h : ValidUrl u) (hf : u.scheme = codes "file") (k : Host) (hk : GoodHost (Special u.scheme) k) :
    ValidUrl { u with host := some k } := by
  have hcb := (h.special (by rw [hf]; exact file_special)).2.2.1
  obtain ⟨h1, h2, h3⟩ := h.file hf
  exact valid_setHost h hcb k hk (fun hh => absurd hf hh) (fun hh => by simp [h1, h2, h3] at hh)

include hc hx hs hv in
theorem fileHost_v (hst : s.state = .fileHost) : VOk x (onFileHost x s (x.at s.pos)) := by
  have hlo := hs.lo
  have hhi := hs.hi
  have hsh := hs.shape
  simp only [Shape, hst] at hsh
  have hn : x.override = none → s.url = { scheme := codes "file", host := some .empty } := fun ho => by
    rw [vn ho] at hv; simp only [VN, hst] at hv; exact hv
  have hval : x.override ≠ none → ValidUrl s.url ∧ s.url.scheme = codes "file" := fun ho => by
    rw [vo ho] at hv; simp only [VO, hst] at hv; exact hv
  have hf : s.url.scheme = codes "file" := by
    by_cases ho : x.override = none
    · rw [hn ho]
    · exact (hval ho).2
  have hsp : Special s.url.scheme := by rw [hf]; exact file_special
  have hcore : ∀ k, x.override = none → GoodHost (Special s.url.scheme) k → Core { s.url with host := some k } := by
    intro k ho hk
    rw [hn ho] at hk ⊢
    exact (fresh_of file_scheme).core (fun _ => ⟨rfl, rfl⟩) k hk (fun h => absurd rfl h) (by simp)
  unfold onFileHost
  split
  · dsimp only
    split
    · rename_i h
      refine vok_back (by simp only [bad_pos]; omega) ?_
      rw [vn h.1]
      simp only [VN, bad_url, bad_buffer]
      refine ⟨by rw [hn h.1]; exact file_core, ?_⟩
      have hb := h.2
      match hbb : s.buffer, hb with
      | [a, b], hb =>
        simp only [hbb, isWindowsDriveLetter, Bool.and_eq_true, Bool.or_eq_true, beq_iff_eq] at hb
        have ha : ∀ c, isAsciiAlpha c = true → ¬ InSet .path c ∧ c ≠ 0x2F ∧ c ≠ 0x5C := by
          intro c hc
          have : (List.range 0x80).all (fun c => decide (isAsciiAlpha c = true → ¬ InSet .path c ∧ c ≠ 0x2F ∧ c ≠ 0x5C)) = true := by
            decide +kernel
          exact of_decide_eq_true (List.all_eq_true.mp this c (List.mem_range.mpr (alpha_lt hc))) hc
        intro c hc
        simp only [List.mem_cons, List.not_mem_nil, or_false] at hc
        rcases hc with rfl | rfl
        · exact ⟨(ha _ hb.1).1, (ha _ hb.1).2.1, fun _ => (ha _ hb.1).2.2⟩
        · rcases hb.2 with h | h <;> subst h
          · exact ⟨by decide, by decide, fun _ => by decide⟩
          · exact ⟨by decide, by decide, fun _ => by decide⟩
    · split
      · split
        · exact fun ho => valid_setFileHost (hval ho).1 hf .empty hsp
        · rename_i ho
          have ho : x.override = none := Classical.byContradiction ho
          refine vok_back (by dsimp only; omega) ?_
          rw [vn ho]
          simp only [VN]
          exact hcore .empty ho hsp
      · rcases host_ends x.toAscii s.buffer hs.scal (!isSpecial s.url) none x.fuel (by have := hc.fuel; omega) with h | ⟨h, ec, h1, hr⟩
        · rw [h]; trivial
        · rw [h1]
          dsimp only
          split
          · split
            · exact fun ho => (hval ho).1
            · exact fun ho => (hval ho).1
          · rename_i hnn
            obtain ⟨g1, g2, g3⟩ := result_good hx.ascii hs.scal hr hnn
            cases hq : hostEq h (lit "localhost") with
            | none => trivial
            | some b =>
              dsimp only
              have hg : GoodHost (Special s.url.scheme) (if b = true then .empty else h) := by
                split
                · exact hsp
                · exact g1
              split
              · split
                · exact fun ho => valid_setFileHost (hval ho).1 hf _ hg
                · exact fun ho => valid_setFileHost (hval ho).1 hf _ hg
              · rename_i ho
                have ho : x.override = none := Classical.byContradiction ho
                have := hcore _ ho hg
                split
                · refine vok_back (by dsimp only; omega) ?_
                  rw [vn ho]
                  simp only [VN]
                  exact this
                · refine vok_back (by dsimp only; omega) ?_
                  rw [vn ho]
                  simp only [VN]
                  exact this
  · rename_i h
    have hin : s.pos < x.input.length := in_of fun hh => h (Or.inl hh)
    refine vok_back hin ?_
    by_cases ho : x.override = none
    · rw [vn ho] at hv ⊢; simp only [VN, hst] at hv ⊢; exact hv
    · rw [vo ho] at hv ⊢; simp only [VO, hst] at hv ⊢; exact hv

include hx hs hv in
theorem pathStart_v (hst : s.state = .pathStart) : VOk x (onPathStart x s (x.at s.pos)) := by
  have hlo := hs.lo
  have hhi := hs.hi
  have hsh := hs.shape
  simp only [Shape, hst] at hsh
  have hcore : Core s.url := by
    by_cases ho : x.override = none
    · rw [vn ho] at hv; simp only [VN, hst] at hv; exact hv
    · rw [vo ho] at hv; simp only [VO, hst] at hv; exact hv
  have nil : SegOk s.url [] := by intro c hc; cases hc
  have topath : ∀ t : St, t.state = .path → t.url = s.url → t.buffer = s.buffer → VInv x t := by
    intro t h1 h2 h3
    by_cases ho : x.override = none
    · rw [vn ho]; simp only [VN, h1, h2, h3, hsh]; exact ⟨hcore, nil⟩
    · rw [vo ho]; simp only [VO, h1, h2, h3, hsh]; exact ⟨hcore, nil⟩
  unfold onPathStart
  split
  · dsimp only
    split
    · refine vok_back (by simp only [badIf_pos]; omega) (topath _ rfl (by simp) (by simp))
    · rename_i h
      refine vok_back (in_of ?_) (topath _ rfl (by simp) (by simp))
      simp only [badIf_pos]
      rcases Classical.byContradiction h with h | h <;> rw [h] <;> omega
  · rename_i hns
    have hns : ¬ Special s.url.scheme := by rw [← special_iff]; exact hns
    have hval : ValidUrl s.url := hcore.valid fun h => absurd h hns
    split
    · rename_i h
      refine vok_back (in_of (by dsimp only; rw [h.2]; omega)) ?_
      rw [vn h.1]
      simp only [VN]
      exact valid_setQuery hval _ (by intro t ht; injection ht with ht; subst ht; intro c hc; cases hc)
    · split
      · rename_i h
        refine vok_back (in_of (by dsimp only; rw [h.2]; omega)) ?_
        rw [vn h.1]
        simp only [VN]
        exact valid_setFragment hval _ (by intro t ht; injection ht with ht; subst ht; intro c hc; cases hc)
      · split
        · dsimp only
          split
          · exact vok_back (by dsimp only; omega) (topath _ rfl rfl rfl)
          · rename_i h
            exact vok_back (in_of (by dsimp only; rw [Classical.byContradiction h]; omega)) (topath _ rfl rfl rfl)
        · rename_i h
          have := at_nl hx hlo (Classical.byContradiction h)
          exact ⟨fun hh => by omega, fun _ => hval⟩

include hc hx hs hv in
theorem path_v (hst : s.state = .path) : VOk x (onPath x s (x.at s.pos)) := by
  have hlo := hs.lo
  have hhi := hs.hi
  have hsh := hs.shape
  simp only [Shape, hst] at hsh
  have hcs : Core s.url ∧ SegOk s.url s.buffer := by
    by_cases ho : x.override = none
    · rw [vn ho] at hv; simp only [VN, hst] at hv; exact hv
    · rw [vo ho] at hv; simp only [VO, hst] at hv; exact hv
  obtain ⟨hcore, hseg⟩ := hcs
  have topath : ∀ t : St, t.state = .path → Core t.url → SegOk t.url t.buffer → VInv x t := by
    intro t h1 h2 h3
    by_cases ho : x.override = none
    · rw [vn ho]; simp only [VN, h1]; exact ⟨h2, h3⟩
    · rw [vo ho]; simp only [VO, h1]; exact ⟨h2, h3⟩
  have toquery : ∀ t : St, t.state = .query ∨ t.state = .fragment → ValidUrl t.url → VInv x t := by
    intro t h1 h2
    by_cases ho : x.override = none
    · rw [vn ho]; rcases h1 with h1 | h1 <;> simp only [VN, h1] <;> exact h2
    · rw [vo ho]; rcases h1 with h1 | h1 <;> simp only [VO, h1] <;> exact h2
  unfold onPath
  dsimp only
  split
  · simp only [badIf_url, badIf_buffer]
    cases hp : pushSegment s.url s.buffer (x.at s.pos == 0x2F || (isSpecial s.url && x.at s.pos == 0x5C)) with
    | none => trivial
    | some v =>
      obtain ⟨ps, rfl, hps, hne⟩ := push_ok hcore hseg hsh hp
      have hcv := hcore.setPath ps hps
      have hval : (x.at s.pos == 0x2F || (isSpecial s.url && x.at s.pos == 0x5C)) = false → ValidUrl { s.url with path := ps } :=
        fun h => hcv.valid fun _ => hne h
      dsimp only
      split
      · rename_i h
        refine vok_back (in_of (by simp only [badIf_pos]; rw [h]; omega)) (toquery _ (Or.inl rfl) ?_)
        exact valid_setQuery (hval (by rw [h]; simp)) _ (by intro t ht; injection ht with ht; subst ht; intro c hc; cases hc)
      · split
        · rename_i h
          refine vok_back (in_of (by simp only [badIf_pos]; rw [h]; omega)) (toquery _ (Or.inr rfl) ?_)
          exact valid_setFragment (hval (by rw [h]; simp)) _ (by intro t ht; injection ht with ht; subst ht; intro c hc; cases hc)
        · refine ⟨fun _ => topath _ (by simp [hst]) hcv (by intro c hc; cases hc), fun h => ?_⟩
          simp only [badIf_pos] at h
          exact hval (by rw [at_end h]; simp)
  · rename_i hcond
    have := cp_enc _ (at_scalar hc s.pos) .path x.fuel (by have := hc.fuel; omega)
    rw [show setOf .path = isPathSet from rfl] at this
    rw [this]
    dsimp only
    have hcl := enc8_clean .path (by decide) [x.at s.pos] (by simpa using at_scalar hc s.pos)
    have hme := enc8_mem .path [x.at s.pos] (by simpa using at_scalar hc s.pos)
    simp only [Bool.or_eq_true, Bool.and_eq_true, beq_iff_eq, not_or, not_and] at hcond
    refine vok_back (in_of (by simp only [badIf_pos]; exact hcond.1.1)) (topath _ (by simp [hst]) (by simpa using hcore) ?_)
    simp only [badIf_url, badIf_buffer]
    intro c hcm
    rcases List.mem_append.mp hcm with hcm | hcm
    · exact hseg c hcm
    · have h1 := (hcl c hcm).1
      refine ⟨h1, ?_, fun hsp => ?_⟩
      · rcases hme c hcm with h | h | h | h
        · obtain rfl := List.mem_singleton.mp h; exact hcond.1.2.1
        · omega
        · omega
        · omega
      · rcases hme c hcm with h | h | h | h
        · obtain rfl := List.mem_singleton.mp h
          exact hcond.1.2.2 ((special_iff _).mpr hsp)
        · omega
        · omega
        · omega

include hc hx hs hv in
theorem cannotBe_v (ho : x.override = none) (hst : s.state = .cannotBeABaseUrlPath) : VOk x (onCannotBeABase x s (x.at s.pos)) := by
  have hlo := hs.lo
  have hhi := hs.hi
  rw [vn ho] at hv
  simp only [VN, hst] at hv
  obtain ⟨hval, hcb⟩ := hv
  unfold onCannotBeABase
  dsimp only
  split
  · rename_i h
    refine vok_back (in_of (by dsimp only; rw [h]; omega)) ?_
    rw [vn ho]
    simp only [VN]
    exact valid_setQuery hval _ (by intro t ht; injection ht with ht; subst ht; intro c hc; cases hc)
  · rename_i h3F
    split
    · rename_i h
      refine vok_back (in_of (by dsimp only; rw [h]; omega)) ?_
      rw [vn ho]
      simp only [VN]
      exact valid_setFragment hval _ (by intro t ht; injection ht with ht; subst ht; intro c hc; cases hc)
    · rename_i h23
      split
      · rename_i hnl
        have := cp_enc _ (at_scalar hc s.pos) .c0 x.fuel (by have := hc.fuel; omega)
        rw [show setOf .c0 = isC0ControlSet from rfl] at this
        rw [this]
        dsimp only
        have hcl := enc8_clean .c0 (by decide) [x.at s.pos] (by simpa using at_scalar hc s.pos)
        have hme := enc8_mem .c0 [x.at s.pos] (by simpa using at_scalar hc s.pos)
        obtain ⟨hh, p, hp, hpc⟩ := hval.cannot hcb
        simp only [badIf_url]
        rw [hp]
        dsimp only
        refine vok_back (in_of (by simpa using hnl)) ?_
        rw [vn ho]
        simp only [VN, badIf_state, hst]
        refine ⟨⟨hval.scheme, hval.username, hval.password, hval.host, hval.port, hval.query, hval.fragment, ?_, hval.file, hval.authority,
          fun _ => ⟨hh, _, rfl, ?_⟩, fun h => ?_⟩, hcb⟩
        · intro hsp
          have := (hval.special hsp).2.2.1
          rw [hcb] at this; cases this
        · intro c hcm
          rcases List.mem_append.mp hcm with hcm | hcm
          · exact hpc c hcm
          · refine ⟨(hcl c hcm).1, ?_, ?_⟩
            · rcases hme c hcm with h | h | h | h
              · obtain rfl := List.mem_singleton.mp h; exact h3F
              · omega
              · omega
              · omega
            · rcases hme c hcm with h | h | h | h
              · obtain rfl := List.mem_singleton.mp h; exact h23
              · omega
              · omega
              · omega
        · dsimp only at h; rw [hcb] at h; cases h
      · rename_i h
        have := at_nl hx hlo (Classical.byContradiction h)
        refine ⟨fun hh => ?_, fun _ => by simpa using hval⟩
        simp only [badIf_pos] at hh; omega

theorem special_query {c : Nat} (h : ¬ InSet .specialQuery c) : ¬ InSet .query c := by
  intro hq
  apply h
  unfold InSet at *
  rcases hq with hq | hq | hq
  · exact Or.inl hq
  · exact Or.inr (Or.inl hq)
  · refine Or.inr (Or.inr ?_)
    have : ∀ c ∈ codes (printable .query), c ∈ codes (printable .specialQuery) := by decide
    exact this c hq

include hc hx hs hv in
theorem query_v (hst : s.state = .query) : VOk x (onQuery x s (x.at s.pos)) := by
  have hlo := hs.lo
  have hhi := hs.hi
  have hsh := hs.shape
  simp only [Shape, hst] at hsh
  have hval : ValidUrl s.url := by
    by_cases ho : x.override = none
    · rw [vn ho] at hv; simp only [VN, hst] at hv; exact hv
    · rw [vo ho] at hv; simp only [VO, hst] at hv; exact hv
  have toquery : ∀ t : St, t.state = .query ∨ t.state = .fragment → ValidUrl t.url → VInv x t := by
    intro t h1 h2
    by_cases ho : x.override = none
    · rw [vn ho]; rcases h1 with h1 | h1 <;> simp only [VN, h1] <;> exact h2
    · rw [vo ho]; rcases h1 with h1 | h1 <;> simp only [VO, h1] <;> exact h2
  unfold onQuery
  dsimp only
  obtain ⟨s1, e1, h1, h2, h3, h4, h5⟩ : ∃ s1 : St, (if s.enc ≠ .UTF_8 ∧ (isSpecial s.url = false ∨ s.url.scheme = lit "ws" ∨
      s.url.scheme = lit "wss") then { s with enc := .UTF_8 } else s) = s1 ∧ s1.pos = s.pos ∧ s1.buffer = s.buffer ∧
      s1.state = s.state ∧ s1.url = s.url ∧ s1.enc ≠ .ISO_2022_JP := by
    refine ⟨_, rfl, ?_⟩
    split
    · exact ⟨rfl, rfl, rfl, rfl, by simp⟩
    · exact ⟨rfl, rfl, rfl, rfl, hs.enc⟩
  rw [e1]
  split
  · rename_i hend
    have hset : (if isSpecial s1.url = true then isSpecialQuerySet else isQuerySet) = setOf (if isSpecial s1.url = true then .specialQuery else .query) := by
      split <;> rfl
    rw [hset]
    have hlen : s1.buffer.length < x.fuel := by have := hc.fuel; rw [h2]; omega
    have hpp : ∀ p : PSet, p = (if isSpecial s1.url = true then .specialQuery else .query) → p ≠ .component ∧ p ≠ .form := by
      intro p hp; split at hp <;> subst hp <;> decide
    rcases query_enc s1.enc h5 s1.buffer _ (hpp _ rfl) x.fuel hlen with h | ⟨t, h, hcl⟩
    · rw [h]; trivial
    · rw [h]
      dsimp only
      rw [h4] at hcl ⊢
      cases hq : s.url.query with
      | none => exact absurd hq hsh.2
      | some q =>
        dsimp only
        have hval' : ValidUrl { s.url with query := some (q ++ t) } := by
          refine valid_setQuery hval _ fun w hw => ?_
          injection hw with hw
          subst hw
          intro c hcm
          rcases List.mem_append.mp hcm with hcm | hcm
          · exact hval.query q hq c hcm
          · have := (hcl c hcm).1
            by_cases hsp : isSpecial s.url = true
            · rw [if_pos hsp] at this
              exact ⟨special_query this, fun _ => this⟩
            · rw [if_neg hsp] at this
              exact ⟨this, fun h => absurd ((special_iff _).mpr h) hsp⟩
        split
        · rename_i h
          refine vok_back (in_of (by dsimp only; rw [h1, h]; omega)) (toquery _ (Or.inr rfl) ?_)
          exact valid_setFragment hval' _ (by intro t ht; injection ht with ht; subst ht; intro c hc; cases hc)
        · exact ⟨fun _ => toquery _ (Or.inl (h3.trans hst)) hval', fun _ => hval'⟩
  · rename_i hend
    refine vok_back (in_of ?_) (toquery _ (Or.inl (by simp [h3, hst])) (by simpa [h4] using hval))
    simp only [badIf_pos, h1]
    exact fun h => hend (Or.inr h)

include hc hx hs hv in
theorem fragment_v (hst : s.state = .fragment) : VOk x (onFragment x s (x.at s.pos)) := by
  have hlo := hs.lo
  have hhi := hs.hi
  have hval : ValidUrl s.url := by
    by_cases ho : x.override = none
    · rw [vn ho] at hv; simp only [VN, hst] at hv; exact hv
    · rw [vo ho] at hv; simp only [VO, hst] at hv; exact hv
  have toquery : ∀ t : St, t.state = .query ∨ t.state = .fragment → ValidUrl t.url → VInv x t := by
    intro t h1 h2
    by_cases ho : x.override = none
    · rw [vn ho]; rcases h1 with h1 | h1 <;> simp only [VN, h1] <;> exact h2
    · rw [vo ho]; rcases h1 with h1 | h1 <;> simp only [VO, h1] <;> exact h2
  unfold onFragment
  dsimp only
  split
  · have := cp_enc _ (at_scalar hc s.pos) .fragment x.fuel (by have := hc.fuel; omega)
    rw [show setOf .fragment = isFragmentSet from rfl] at this
    rw [this]
    dsimp only
    have hcl := enc8_clean .fragment (by decide) [x.at s.pos] (by simpa using at_scalar hc s.pos)
    simp only [badIf_url]
    split
    · trivial
    · rename_i f hf
      have hval' : ValidUrl { s.url with fragment := some (f ++ enc8 .fragment [x.at s.pos]) } := by
        refine valid_setFragment hval _ fun w hw => ?_
        injection hw with hw
        subst hw
        intro c hcm
        rcases List.mem_append.mp hcm with hcm | hcm
        · exact hval.fragment f hf c hcm
        · exact (hcl c hcm).1
      exact ⟨fun _ => toquery _ (Or.inr (by simp [hst])) hval', fun _ => hval'⟩
  · exact ⟨fun _ => toquery _ (Or.inr hst) hval, fun _ => hval⟩

include hc hx hs hv in
theorem step_v : VOk x (step x s) := by
  have hnone : x.override = none ∨ VO s := by
    by_cases ho : x.override = none
    · exact Or.inl ho
    · rw [vo ho] at hv; exact Or.inr hv
  unfold step
  dsimp only
  split
  · exact schemeStart_v hx hs hv ‹_›
  · exact scheme_v hx hs hv ‹_›
  · rename_i h
    rcases hnone with ho | ho
    · exact noScheme_v hx hs hv ho h
    · simp [VO, h] at ho
  · rename_i h
    rcases hnone with ho | ho
    · exact specialRelative_v hx hs hv ho h
    · simp [VO, h] at ho
  · rename_i h
    rcases hnone with ho | ho
    · exact pathOrAuthority_v hx hs hv ho h
    · simp [VO, h] at ho
  · rename_i h
    rcases hnone with ho | ho
    · exact relative_v hx hs hv ho h
    · simp [VO, h] at ho
  · rename_i h
    rcases hnone with ho | ho
    · exact relativeSlash_v hx hs hv ho h
    · simp [VO, h] at ho
  · rename_i h
    rcases hnone with ho | ho
    · exact authoritySlashes_v hs hv ho h
    · simp [VO, h] at ho
  · rename_i h
    rcases hnone with ho | ho
    · exact ignoreSlashes_v hs hv ho h
    · simp [VO, h] at ho
  · rename_i h
    rcases hnone with ho | ho
    · exact authority_v hc hx hs hv ho h
    · simp [VO, h] at ho
  · rename_i h
    by_cases ho : x.override = none
    · exact hostname_none hc hx hs hv ho (Or.inl h)
    · exact hostname_some hc hx hs hv ho (Or.inl h)
  · rename_i h
    by_cases ho : x.override = none
    · exact hostname_none hc hx hs hv ho (Or.inr h)
    · exact hostname_some hc hx hs hv ho (Or.inr h)
  · exact port_v hs hv ‹_›
  · rename_i h
    rcases hnone with ho | ho
    · exact file_v hx hs hv ho h
    · simp [VO, h] at ho
  · rename_i h
    rcases hnone with ho | ho
    · exact fileSlash_v hx hs hv ho h
    · simp [VO, h] at ho
  · exact fileHost_v hc hx hs hv ‹_›
  · exact pathStart_v hx hs hv ‹_›
  · exact path_v hc hx hs hv ‹_›
  · rename_i h
    rcases hnone with ho | ho
    · exact cannotBe_v hc hx hs hv ho h
    · simp [VO, h] at ho
  · exact query_v hc hx hs hv ‹_›
  · exact fragment_v hc hx hs hv ‹_›

end

/-- A record that is returned is valid; with a state override the record stays valid whatever is returned. -/
theorem run_valid {x : Ctx} (hc : CInv x) (hx : XInv x) : ∀ (n : Nat) (s : St) (b : Bool) (s' : St), TInv x s → VInv x s →
    run x n s = .stop (b, s') → (b = true ∨ x.override ≠ none) → ValidUrl s'.url
  | 0, s, b, s', _, _, h, _ => by cases h
  | n + 1, s, b, s', ht, hv, h, hb => by
    have h1 := step_ok hc ht
    have h2 := step_v hc hx ht hv
    rw [run] at h
    cases hst : step x s with
    | more => rw [hst] at h; cases h
    | ub => rw [hst] at h; cases h
    | failure t =>
      rw [hst] at h h2
      injection h with h; injection h with h3 h4
      subst h3; subst h4
      rcases hb with hb | hb
      · cases hb
      · exact h2 hb
    | ret t =>
      rw [hst] at h h2
      injection h with h; injection h with h3 h4
      subst h3; subst h4
      rcases hb with hb | hb
      · cases hb
      · exact h2 hb
    | cont t =>
      rw [hst] at h h1 h2
      dsimp only at h
      by_cases hp : t.pos < x.input.length
      · rw [if_pos hp] at h
        exact run_valid hc hx n _ b s' (h1.2 hp).1 (h2.1 hp) h hb
      · rw [if_neg hp] at h
        injection h with h; injection h with h3 h4
        subst h3; subst h4
        exact h2.2 (by omega)

end Verif.Proof.UrlStep
