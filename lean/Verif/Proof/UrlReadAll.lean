import Verif.Proof.UrlKept
/- Every URL record that loses nothing in its text is read again. -/
namespace Verif.Proof.UrlReadAll
open Verif.Model.Infra Verif.Model.Unicode Verif.Model.Coder Verif.Model.Legacy Verif.Model.Percent Verif.Model.Host Verif.Model.Url
open Verif.Spec Verif.Spec.Percent Verif.Spec.Host Verif.Spec.Url Verif.Spec.UrlText
open Verif.Proof.UrlInner Verif.Proof.UrlEnds Verif.Proof.UrlValid Verif.Proof.UrlStep Verif.Proof.UrlApi Verif.Proof.UrlPort
open Verif.Proof.UrlAgain Verif.Proof.UrlWhole Verif.Proof.UrlRead Verif.Proof.UrlKept

/-! ### What the constructor leaves out -/

/-- Characters that stay. -/
def Stays (c : Nat) : Prop := c ≠ 0x09 ∧ c ≠ 0x0A ∧ c ≠ 0x0D ∧ c < 0x80

instance (c : Nat) : Decidable (Stays c) := by unfold Stays; infer_instance

/-- Text that does not end in a space or a control. -/
def EndsWell (l : List Nat) : Prop := ∀ z, l.getLast? = some z → 0x20 < z

theorem ends_app {a b : List Nat} (ha : EndsWell a) (hb : EndsWell b) : EndsWell (a ++ b) := by
  intro z hz
  rw [List.getLast?_append] at hz
  cases hb' : b.getLast? with
  | none => rw [hb'] at hz; exact ha z (by simpa using hz)
  | some y => rw [hb'] at hz; simp at hz; subst hz; exact hb y hb'

theorem ends_app' {a b : List Nat} (hne : b ≠ []) (hb : EndsWell b) : EndsWell (a ++ b) := by
  intro z hz
  rw [List.getLast?_append] at hz
  cases hb' : b.getLast? with
  | none => exact absurd (List.getLast?_eq_none_iff.mp hb') hne
  | some y => rw [hb'] at hz; simp at hz; subst hz; exact hb y hb'

theorem ends_all {a : List Nat} (h : ∀ c ∈ a, 0x20 < c) : EndsWell a := fun z hz => h z (List.mem_of_getLast? hz)

theorem ends_cons {a : List Nat} {c : Nat} (hc : 0x20 < c) (ha : EndsWell a) : EndsWell (c :: a) := by
  have := ends_app (a := [c]) (ends_all (by simpa using hc)) ha
  simpa using this

theorem untrimmed {t : List Nat} (hs : ∀ c ∈ t, Stays c) (h1 : ∀ a, t.head? = some a → 0x20 < a) (h2 : EndsWell t) :
    cleaned (trimmed t) = t := by
  have key : ∀ l : List Nat, (∀ a, l.head? = some a → 0x20 < a) → l.dropWhile isC0ControlOrSpace = l := by
    intro l hl
    cases l with
    | nil => rfl
    | cons a l =>
      have := hl a rfl
      rw [List.dropWhile_cons_of_neg]
      simp [isC0ControlOrSpace, isC0Control]
      omega
  have ht : trimmed t = t := by
    unfold trimmed
    rw [key t h1, key t.reverse (fun a ha => h2 a (by simpa using ha)), List.reverse_reverse]
  rw [ht]
  unfold cleaned
  rw [List.filter_eq_self]
  intro c hc
  obtain ⟨a1, a2, a3, _⟩ := hs c hc
  simp [isAsciiTabOrNewline, a1, a2, a3]

theorem noset {p : PSet} {c : Nat} (h : ¬ InSet p c) : Stays c := by
  unfold InSet at h
  unfold Stays
  omega

theorem noset_space {p : PSet} (hp : p ≠ .c0) {c : Nat} (h : ¬ InSet p c) : 0x20 < c := by
  have h0 : ∀ p : PSet, p ≠ .c0 → InSet p 0x20 := by intro p; cases p <;> decide
  by_contra hc
  have h1 : c = 0x20 := by unfold InSet at h; omega
  exact h (h1 ▸ h0 p hp)

theorem tail_chars {u : Url} (hv : ValidUrl u) : ∀ c ∈ tailText u, Stays c ∧ 0x20 < c := by
  intro c hc
  unfold tailText at hc
  rcases List.mem_append.mp hc with hc | hc
  · cases hq : u.query with
    | none => rw [hq] at hc; cases hc
    | some q =>
      rw [hq] at hc
      rcases List.mem_cons.mp hc with rfl | hc
      · decide
      · have := (hv.query q hq c hc).1
        exact ⟨noset this, noset_space (by decide) this⟩
  · cases hq : u.fragment with
    | none => rw [hq] at hc; cases hc
    | some q =>
      rw [hq] at hc
      rcases List.mem_cons.mp hc with rfl | hc
      · decide
      · have := hv.fragment q hq c hc
        exact ⟨noset this, noset_space (by decide) this⟩

theorem segs_chars {u : Url} (hv : ValidUrl u) (hcb : u.cannotBeBase = false) : ∀ c ∈ segsText u.path, Stays c ∧ 0x20 < c := by
  intro c hc
  unfold segsText at hc
  obtain ⟨p, hp, hc⟩ := List.mem_flatMap.mp hc
  rcases List.mem_cons.mp hc with rfl | hc
  · decide
  · have := ((hv.path hcb p hp).2 c hc).1
    exact ⟨noset this, noset_space (by decide) this⟩

theorem scheme_chars {u : Url} (hv : ValidUrl u) : ∀ c ∈ u.scheme, Stays c ∧ 0x20 < c := by
  obtain ⟨a, r, h, h1, h2⟩ := hv.scheme
  intro c hc
  rw [h] at hc
  have key : Lower c ∨ (0x30 ≤ c ∧ c ≤ 0x39) ∨ c ∈ codes "+-." := by
    rcases List.mem_cons.mp hc with rfl | hc
    · exact Or.inl h1
    · exact h2 c hc
  have h3 : ∀ c ∈ codes "+-.", Stays c ∧ 0x20 < c := by unfold Stays; decide
  rcases key with h | h | h
  · unfold Lower at h; unfold Stays; omega
  · unfold Stays; omega
  · exact h3 c h

theorem scheme_head {u : Url} (hv : ValidUrl u) (r : List Nat) : ∀ a, (u.scheme ++ r).head? = some a → 0x20 < a := by
  obtain ⟨b, t, h, h1, _⟩ := hv.scheme
  intro a ha
  rw [h] at ha
  simp at ha
  subst ha
  unfold Lower at h1
  omega

theorem user_chars {u : Url} (hv : ValidUrl u) : ∀ c ∈ userText u.username u.password, Stays c ∧ 0x20 < c := by
  intro c hc
  unfold userText at hc
  split at hc
  · cases hc
  · rcases List.mem_append.mp hc with hc | hc
    · have := credText_chars hv.username hv.password c hc
      unfold Stays
      omega
    · obtain rfl := List.mem_singleton.mp hc
      decide

/-- A host can be read again, given time. -/
theorem host_good {toAscii : List Nat → Ec → List Nat × Ec} (hA : Settled toAscii) {u : Url} (hv : ValidUrl u) (hk : Kept toAscii u)
    (h6 : ∀ a, u.host = some (.ipv6 a) → zeroRuns a ≤ 2) {h : Host} (hh : u.host = some h) (hne : h ≠ .empty) :
    ∃ w, serializeHost h = some w ∧ ∀ x : Ctx, x.toAscii = toAscii → 9 * w.length + 9 ≤ x.fuel → Good x { scheme := u.scheme } h w := by
  have hg := hv.host h hh
  cases h with
  | null => exact absurd hg (by simp [GoodHost])
  | empty => exact absurd rfl hne
  | domain d =>
    obtain ⟨hsp, _, hF⟩ := hg
    obtain ⟨q, e, hq, h4⟩ := hk.domain d hh
    refine ⟨d, rfl, fun x hx hf => ?_⟩
    subst hx
    exact domain_good hA ((special_iff _).mpr hsp) hq h4 hF hf
  | ipv4 n =>
    obtain ⟨hsp, hn⟩ := hg
    refine ⟨dotted n, by rw [serializeHost, Verif.Proof.Host4.dotted_eq n hn], fun x hx hf => ?_⟩
    subst hx
    exact ipv4_good (u := { scheme := u.scheme }) hA ((special_iff _).mpr hsp) hn hf
  | ipv6 a =>
    refine ⟨0x5B :: (serializeIpv6 a ++ [0x5D]), by simp [serializeHost], fun x hx hf => ?_⟩
    exact ipv6_good hg.1 hg.2 (h6 a hh) (by simp at hf; omega)
  | «opaque» s =>
    refine ⟨s, rfl, fun x hx hf => opaque_good ?_ hg.2 hf⟩
    exact (special_false u.scheme).mpr hg.1

theorem host_text {toAscii : List Nat → Ec → List Nat × Ec} (hA : Settled toAscii) {u : Url} (hv : ValidUrl u) (hk : Kept toAscii u)
    (h6 : ∀ a, u.host = some (.ipv6 a) → zeroRuns a ≤ 2) {h : Host} (hh : u.host = some h) :
    ∃ w, serializeHost h = some w ∧ (∀ c ∈ w, Stays c) ∧ (¬ Special u.scheme → ∀ c ∈ w, 0x20 < c) := by
  by_cases hne : h = .empty
  · subst hne
    exact ⟨[], rfl, by simp, by simp⟩
  · obtain ⟨w, hw, hg⟩ := host_good hA hv hk h6 hh hne
    have hg := hg ⟨[], none, none, toAscii, 9 * w.length + 9⟩ rfl (by simp)
    refine ⟨w, hw, fun c hc => ?_, fun hs => hg.visible ?_⟩
    · have := hg.chars c hc
      unfold Stays
      omega
    · exact (special_false u.scheme).mpr hs

/-- The text has nothing that the constructor leaves out. -/
theorem text_whole {toAscii : List Nat → Ec → List Nat × Ec} (hA : Settled toAscii) {u : Url} (hv : ValidUrl u) (hk : Kept toAscii u)
    (hre : Readable u) : ∃ t, serializeUrl u false = some t ∧ cleaned (trimmed t) = t ∧ ∀ c ∈ t, c < 0x80 := by
  have ht := tail_chars hv
  have hs := scheme_chars hv
  have et : EndsWell (tailText u) := ends_all fun c hc => (ht c hc).2
  have es : EndsWell u.scheme := ends_all fun c hc => (hs c hc).2
  have fin : ∀ r : List Nat, (∀ c ∈ r, Stays c) → EndsWell r →
      cleaned (trimmed (u.scheme ++ 0x3A :: r)) = u.scheme ++ 0x3A :: r ∧ ∀ c ∈ u.scheme ++ 0x3A :: r, c < 0x80 := by
    intro r hr he
    have hall : ∀ c ∈ u.scheme ++ 0x3A :: r, Stays c := by
      intro c hc
      rcases List.mem_append.mp hc with hc | hc
      · exact (hs c hc).1
      · rcases List.mem_cons.mp hc with rfl | hc
        · decide
        · exact hr c hc
    exact ⟨untrimmed hall (scheme_head hv _) (ends_app es (ends_cons (by decide) he)), fun c hc => (hall c hc).2.2.2⟩
  cases hcb : u.cannotBeBase with
  | true =>
    obtain ⟨hh, p, hp, hpc⟩ := hv.cannot hcb
    refine ⟨_, text_cannot hh hcb hp, fin _ ?_ ?_⟩
    · intro c hc
      rcases List.mem_append.mp hc with hc | hc
      · exact noset (hpc c hc).1
      · exact (ht c hc).1
    · by_cases h0 : tailText u = []
      · rw [h0, List.append_nil]
        intro z hz
        obtain ⟨h1, h2⟩ := tail_nil h0
        have hz' := hpc z (List.mem_of_getLast? hz)
        by_contra hlt
        have : z = 0x20 := by have := hz'.1; unfold InSet at this; omega
        subst this
        obtain ⟨q, rfl⟩ : ∃ q, p = q ++ [0x20] := ⟨p.dropLast, (List.dropLast_append_getLast? _ hz).symm⟩
        rcases hre.space hcb q hp with h | h
        · exact h h1
        · exact h h2
      · exact ends_app' h0 et
  | false =>
    have hsg := segs_chars hv hcb
    have eg : EndsWell (segsText u.path ++ tailText u) := ends_app (ends_all fun c hc => (hsg c hc).2) et
    have hgt : ∀ c ∈ segsText u.path ++ tailText u, Stays c := by
      intro c hc
      rcases List.mem_append.mp hc with hc | hc
      · exact (hsg c hc).1
      · exact (ht c hc).1
    cases hh : u.host with
    | none =>
      refine ⟨_, text_nohost hh hcb, fin _ ?_ ?_⟩
      · intro c hc
        rcases List.mem_append.mp hc with hc | hc
        · split at hc
          · have h3 : ∀ c ∈ [0x2F, 0x2E], Stays c := by decide
            exact h3 c hc
          · cases hc
        · exact hgt c hc
      · refine ends_app (ends_all fun c hc => ?_) eg
        split at hc
        · have h3 : ∀ c ∈ [0x2F, 0x2E], 0x20 < c := by decide
          exact h3 c hc
        · cases hc
    | some h =>
      obtain ⟨w, hw, hws, hwv⟩ := host_text hA hv hk hre.v6 hh
      have hpt : ∀ c ∈ portText u.port, Stays c ∧ 0x20 < c := by
        intro c hc
        have := portText_chars u.port c hc
        unfold Stays
        omega
      have hus := user_chars hv
      refine ⟨_, text_host hh hw hcb, fin _ ?_ ?_⟩
      · intro c hc
        simp only [List.mem_cons, List.mem_append] at hc
        have h2f : Stays 0x2F := by decide
        rcases hc with rfl | rfl | hc | hc | hc | hc | hc
        · exact h2f
        · exact h2f
        · exact (hus c hc).1
        · exact hws c hc
        · exact (hpt c hc).1
        · exact (hsg c hc).1
        · exact (ht c hc).1
      · refine ends_cons (by decide) (ends_cons (by decide) (ends_app (ends_all fun c hc => (hus c hc).2) ?_))
        by_cases hsp : Special u.scheme
        · refine ends_app' ?_ (ends_app (ends_all fun c hc => (hpt c hc).2) eg)
          obtain ⟨_, h2, _, _⟩ := hv.special hsp
          obtain ⟨p, ps, hp⟩ := List.exists_cons_of_ne_nil h2
          simp [hp, segsText]
        · exact ends_app (ends_all (hwv hsp)) (ends_app (ends_all fun c hc => (hpt c hc).2) eg)

/-- The whole text is read. -/
theorem read_all {toAscii : List Nat → Ec → List Nat × Ec} (hA : Settled toAscii) {u : Url} (hv : ValidUrl u) (hk : Kept toAscii u)
    (hre : Readable u) (x : Ctx) (hx : x.toAscii = toAscii) (ho : x.override = none) (hb : x.base = none) (hc : CInv x)
    (hi : serializeUrl u false = some x.input) : Finishes x ⟨.schemeStart, {}, [], x.input, false, false, false⟩ u := by
  have good : ∀ h, u.cannotBeBase = false → u.host = some h → h ≠ .empty → ∃ w, Good x { scheme := u.scheme } h w := by
    intro h hcb hh hne
    obtain ⟨w, hw, hg⟩ := host_good hA hv hk hre.v6 hh hne
    refine ⟨w, hg x hx ?_⟩
    rw [text_host hh hw hcb] at hi
    injection hi with hi
    have hl := congrArg List.length hi
    simp only [List.length_append, List.length_cons] at hl
    have := hc.fuel
    omega
  cases hcb : u.cannotBeBase with
  | true => exact read_cannot ho hc hv hre hcb hi
  | false =>
    cases hh : u.host with
    | none => exact read_nohost ho hc hv hre hcb hh hi
    | some h =>
      by_cases hf : u.scheme = codes "file"
      · refine read_file ho hc hv hre hf (fun d hd => ?_) hi
        obtain ⟨w, hg⟩ := good _ hcb hd (by simp)
        have : w = d := by have := hg.text; simpa [serializeHost] using this.symm
        subst this
        rw [hf] at hg
        exact hg
      · have hne : h ≠ .empty := by
          rintro rfl
          have hg : Special u.scheme := hv.host _ hh
          exact (hv.special hg).2.2.2 hf hh
        obtain ⟨w, hg⟩ := good h hcb hh hne
        exact read_host ho hb hc hv hre hcb hh hf hg hk.port hi

/-- The parser reads the text. -/
theorem parse_text {toAscii : List Nat → Ec → List Nat × Ec} (hA : Settled toAscii) {u : Url} (hv : ValidUrl u) (hk : Kept toAscii u)
    (hre : Readable u) : ∃ t, serializeUrl u false = some t ∧ (∀ c ∈ t, c < 0x80) ∧ ∀ fuel n, 9 * t.length + 20 ≤ fuel → 48 * t.length + 101 ≤ n →
      ∃ s', parse toAscii fuel n t none .UTF_8 = .stop (true, s') ∧ s'.url = u := by
  obtain ⟨t, ht, hcl, ha⟩ := text_whole hA hv hk hre
  refine ⟨t, ht, ha, fun fuel n hf hn => ?_⟩
  have hs : ∀ c ∈ t, IsScalar c := fun c hc => scalar_small (by have := ha c hc; omega)
  have hci := parse_cinv toAscii fuel t hs hf none
  have hin : (parseCtx toAscii fuel t none).input = t := hcl
  have hfin := read_all hA hv hk hre (parseCtx toAscii fuel t none) rfl rfl rfl hci (by rw [hin]; exact ht)
  obtain ⟨s', k, hu, hrun⟩ := hfin (parseSt t .UTF_8).ec
  have hst : (⟨.schemeStart, {}, [], (parseCtx toAscii fuel t none).input, false, false, false⟩ : Cfg).st (parseCtx toAscii fuel t none)
      (parseSt t .UTF_8).ec = parseSt t .UTF_8 := by
    unfold Cfg.st parseSt
    simp [outputEncoding]
  rw [hst] at hrun
  refine ⟨s', ?_, hu⟩
  have hne : parse toAscii fuel n t none .UTF_8 ≠ .more := by
    intro h
    rcases parse_ends toAscii fuel n t hs hf none .UTF_8 (by decide) hn with ⟨b, s', h'⟩ | ⟨h', _⟩ <;> rw [h'] at h <;> cases h
  rw [parse_run] at hne ⊢
  rw [← run_mono _ _ hne k]
  exact hrun n

end Verif.Proof.UrlReadAll
