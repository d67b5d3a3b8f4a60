import Verif.Proof.UrlAgain
import Verif.Spec.UrlText
/- The URL parser on the text of a URL. -/
namespace Verif.Proof.UrlWhole
open Verif.Model.Infra Verif.Model.Unicode Verif.Model.Coder Verif.Model.Legacy Verif.Model.Percent Verif.Model.Host Verif.Model.Url
open Verif.Spec Verif.Spec.Percent Verif.Spec.Host Verif.Spec.Url
open Verif.Proof.UrlInner Verif.Proof.UrlEnds Verif.Proof.UrlValid Verif.Proof.UrlStep Verif.Proof.UrlApi Verif.Proof.UrlPort Verif.Proof.UrlAgain
open Verif.Props.Percent Verif.Spec.UrlText

/-! ### The end of a URL -/

/-- The text of a query. -/
def queryText : Option (List Nat) → List Nat
  | none => []
  | some q => 0x3F :: q

/-- The text of a fragment. -/
def fragmentText : Option (List Nat) → List Nat
  | none => []
  | some f => 0x23 :: f

section
variable {x : Ctx} (ho : x.override = none) (hb : x.base = none) (hc : CInv x)

include ho hc in
/-- Query and fragment behind whatever goes on to them. -/
theorem tail_finishes {g : List Nat → Cfg} {v : Url} {q f : Option (List Nat)} {a t : Bool}
    (gq : ∀ r, (0x3F :: r) <:+ x.input → Goes x (g (0x3F :: r)) ⟨.query, { v with query := some [] }, [], r, a, false, t⟩)
    (gf : ∀ r, (0x23 :: r) <:+ x.input → Goes x (g (0x23 :: r)) ⟨.fragment, { v with fragment := some [] }, [], r, a, false, t⟩)
    (ge : Finishes x (g []) v) (h1 : v.query = none) (h2 : v.fragment = none)
    (hq : ∀ w, q = some w → ∀ c ∈ w, ¬ InSet .query c ∧ (Special v.scheme → ¬ InSet .specialQuery c))
    (hf : ∀ w, f = some w → ∀ c ∈ w, ¬ InSet .fragment c) (hr : (queryText q ++ fragmentText f) <:+ x.input) :
    Finishes x (g (queryText q ++ fragmentText f)) { v with query := q, fragment := f } := by
  cases q with
  | none =>
    cases f with
    | none =>
      have e : ({ v with query := none, fragment := none } : Url) = v := by cases v; simp_all
      rw [e]
      exact ge
    | some f =>
      have e := fragment_loop hc v f [] [] a t (hf f rfl) (by
        rw [List.append_nil]; exact (List.suffix_cons _ _).trans hr)
      rw [List.append_nil, List.nil_append] at e
      have := ((gf f hr).trans e).ends fragment_ends
      have e : ({ v with query := none, fragment := some f } : Url) = { v with fragment := some f } := by cases v; simp_all
      rw [e]
      exact this
  | some q =>
    have hqq := hq q rfl
    cases f with
    | none =>
      have hr' : (q ++ []) <:+ x.input := (List.suffix_cons 0x3F _).trans (by simpa [queryText, fragmentText] using hr)
      have e := query_loop { v with query := some [] } q [] [] a t (fun c hc => (hqq c hc).1) hr'
      rw [List.append_nil, List.nil_append] at e
      have := ((gq q (by simpa [queryText, fragmentText] using hr)).trans e).ends
        (query_ends hc (u := { v with query := some [] }) rfl hqq (by simpa using hr'))
      have e : ({ v with query := some q, fragment := none } : Url) = { v with query := some q } := by cases v; simp_all
      rw [e]
      simpa [queryText, fragmentText] using this
    | some f =>
      have hr1 : (q ++ 0x23 :: f) <:+ x.input := (List.suffix_cons 0x3F _).trans hr
      have hr2 : (f ++ []) <:+ x.input := by
        rw [List.append_nil]
        exact (List.suffix_cons 0x23 _).trans ((List.suffix_append q _).trans hr1)
      have e := query_loop { v with query := some [] } q [] (0x23 :: f) a t (fun c hc => (hqq c hc).1) hr1
      have e2 := query_fragment ho hc (u := { v with query := some [] }) (a := a) (t := t) rfl hqq hr1
      have e3 := fragment_loop hc { v with query := some q } f [] [] a t (hf f rfl) hr2
      rw [List.append_nil, List.nil_append] at e3
      exact ((((gq _ hr).trans e).trans e2).trans e3).ends fragment_ends

/-- Segments with slashes before them. -/
def segsText (ps : List (List Nat)) : List Nat := ps.flatMap fun p => 0x2F :: p

include ho hc in
/-- A path from the first segment on, with query and fragment. -/
theorem path_finishes {q f : Option (List Nat)} {a t : Bool} : ∀ (ps : List (List Nat)) (p : List Nat) (u : Url),
    u.query = none → u.fragment = none → (∀ s ∈ p :: ps, Keeps u s) →
    (u.scheme = codes "file" → u.path = [] → isWindowsDriveLetter p = true → p[1]? = some 0x3A) →
    (∀ w, q = some w → ∀ c ∈ w, ¬ InSet .query c ∧ (Special u.scheme → ¬ InSet .specialQuery c)) →
    (∀ w, f = some w → ∀ c ∈ w, ¬ InSet .fragment c) →
    (p ++ (segsText ps ++ (queryText q ++ fragmentText f))) <:+ x.input →
    Finishes x ⟨.path, u, [], p ++ (segsText ps ++ (queryText q ++ fragmentText f)), a, false, t⟩
      { u with path := u.path ++ p :: ps, query := q, fragment := f } := by
  intro ps
  induction ps with
  | nil =>
    intro p u h1 h2 hk hd hq hf hr
    have hp := hk p (by simp)
    have e := path_loop ho hc u p [] (queryText q ++ fragmentText f) a t hp.2 hr
    have hr' := (List.suffix_append p _).trans hr
    refine e.ends ?_
    have hpush := push_eq hp hd false
    exact tail_finishes ho hc (g := fun r => ⟨.path, u, [] ++ p, r, a, false, t⟩) (v := { u with path := u.path ++ [p] })
      (fun r hr => path_query ho hpush hr) (fun r hr => path_fragment ho hpush hr) (path_ends hpush) h1 h2 hq hf hr'
  | cons s ps ih =>
    intro p u h1 h2 hk hd hq hf hr
    have hp := hk p (by simp)
    have e := path_loop ho hc u p [] (0x2F :: (s ++ (segsText ps ++ (queryText q ++ fragmentText f)))) a t hp.2
      (by simpa [segsText] using hr)
    have hr' : (0x2F :: (s ++ (segsText ps ++ (queryText q ++ fragmentText f)))) <:+ x.input :=
      (List.suffix_append p _).trans (by simpa [segsText] using hr)
    have e2 := path_slash (x := x) (a := a) (t := t) (push_eq hp hd true) hr'
    have e3 := ih s { u with path := u.path ++ [p] } h1 h2 (fun s' hs' => hk s' (List.mem_cons_of_mem _ hs')) (by simp) hq hf
      ((List.suffix_cons _ _).trans hr')
    have := (e.trans e2).ends e3
    simpa [segsText] using this

end

/-! ### The text of a host -/

theorem hexChars (n : Nat) : ∀ c ∈ toChars 16 n, (0x30 ≤ c ∧ c ≤ 0x39) ∨ (0x61 ≤ c ∧ c ≤ 0x66) := by
  induction n using Nat.strongRecOn with
  | ind n ih =>
    rw [toChars]
    by_cases h : n < 16
    · rw [dif_pos (Or.inl h)]
      intro c hc
      rw [List.mem_singleton] at hc
      subst hc
      split <;> omega
    · rw [dif_neg (by omega)]
      have hm := Nat.mod_lt n (show 0 < 16 by omega)
      intro c hc
      rw [List.mem_append, List.mem_singleton] at hc
      rcases hc with hc | rfl
      · exact ih (n / 16) (by omega) c hc
      · split <;> omega

theorem v6Chars (k : Option Nat) : ∀ (ps : List Nat) (i : Nat) (b : Bool), ∀ c ∈ serializeIpv6Loop k i b ps,
    (0x30 ≤ c ∧ c ≤ 0x39) ∨ (0x61 ≤ c ∧ c ≤ 0x66) ∨ c = 0x3A := by
  intro ps
  induction ps with
  | nil => intro i b c hc; simp [serializeIpv6Loop] at hc
  | cons p ps ih =>
    intro i b c hc
    rw [serializeIpv6Loop] at hc
    split at hc
    · exact ih _ _ c hc
    split at hc
    · rcases List.mem_append.mp hc with hc | hc
      · split at hc <;> simp at hc <;> omega
      · exact ih _ _ c hc
    · rcases List.mem_append.mp hc with hc | hc
      · rcases List.mem_append.mp hc with hc | hc
        · have := hexChars p c hc; omega
        · split at hc <;> simp at hc; omega
      · exact ih _ _ c hc

theorem dottedChars (n : Nat) : ∀ c ∈ dotted n, (0x30 ≤ c ∧ c ≤ 0x39) ∨ c = 0x2E := by
  intro c hc
  have hd : ∀ k, c ∈ decimal k → 0x30 ≤ c ∧ c ≤ 0x39 := fun k h => by
    rw [← Verif.Proof.Digits.toChars_decimal] at h
    exact Verif.Proof.Digits.toChars_digit k c h
  simp only [dotted, Infra.join, List.mem_append, List.mem_cons] at hc
  rcases hc with hc | hc | hc | hc | hc | hc | hc
  all_goals first | exact Or.inr hc | exact Or.inl (hd _ hc)

/-- The host parser on ASCII text without `%`. -/
theorem parse_plain {toAscii : List Nat → Ec → List Nat × Ec} {d : List Nat} (hne : d ≠ []) (ha : ∀ c ∈ d, c < 0x80)
    (hF : ∀ c ∈ d, ¬ Forbidden c) (ht : toAscii d none = (d, none)) (fuel : Nat) (hf : 9 * d.length + 9 ≤ fuel) :
    parseHost toAscii fuel d false none =
      match parseIpv4 d none with
      | none => .ub
      | some (.null, ec) => .stop (.null, ec)
      | some (.ipv4 n, ec) => .stop (.ipv4 n, ec)
      | some (_, ec) => .stop (.domain d, ec) := by
  have hs : ∀ c ∈ d, IsScalar c := fun c hc => scalar_small (ha c hc)
  have h6 : ¬ d.head? = some 0x5B := by
    intro h
    cases d with
    | nil => simp at h
    | cons c d => simp at h; subst h; exact hF 0x5B (by simp) (by decide)
  obtain ⟨t, h1, h2⟩ := C42_string_decode d hs fuel (by omega)
  have hu : utf8s d = d := Verif.Proof.HostParse.utf8s_ascii ha
  rw [hu] at h2
  have ht' : t = d := by
    have : ∀ {s t : List Nat}, Decodes s t → (∀ c ∈ s, c ≠ 0x25) → t = s := by
      intro s t h
      induction h with
      | nil => intro _; rfl
      | escape _ _ _ _ => intro h; exact absurd rfl (h 0x25 (by simp))
      | keep _ _ ih => intro h; rw [ih fun c hc => h c (by simp [hc])]
    exact this h2 fun c hc h => hF c hc (by subst h; decide)
  subst ht'
  have hdec := Verif.Proof.Utf8Report.decodes_utf8s hs
  rw [hu] at hdec
  have hw := Verif.Proof.Utf8Report.withoutBom_eq t (fun c hc => by have := ha c hc; omega) hdec fuel (by omega)
  unfold parseHost
  rw [if_neg h6, if_neg (by decide), if_neg hne, h1]
  dsimp only
  rw [hw]
  dsimp only
  rw [Verif.Proof.CoderRun.fromQueue_outAt]
  have hp : points (t.map some) = t := by
    clear * -
    induction t with
    | nil => rfl
    | cons c t ih => simp [points]
  rw [hp, ht]
  dsimp only
  rw [if_neg]
  · rcases parseIpv4 t none with _ | ⟨h, e⟩
    · rfl
    · cases h <;> rfl
  · rw [List.any_eq_true]
    rintro ⟨c, hc, h⟩
    exact hF c hc ((Verif.Proof.HostParse.forbidden_iff c).mp h)

theorem numeral_decimal (n : Nat) : Numeral 10 (decimal n) n := by
  rw [Verif.Proof.Host4.numeral_iff]
  refine ⟨Verif.Proof.Host4.decimal_ne_nil n, fun c hc => ?_, ?_⟩
  · have := Verif.Proof.Host4.decimal_digit n c hc
    have hall : ∀ c < 0x3A, 0x30 ≤ c → isDigitOf 10 c = true := by decide
    exact hall c (by omega) this.1
  · rw [← Verif.Proof.Digits.toChars_decimal, Verif.Proof.Digits.fromChars_toChars 10 n (by omega) (by omega)]

theorem decimal_length {n : Nat} (h : n < 65536) : (decimal n).length ≤ 5 := by
  rw [← Verif.Proof.Digits.toChars_decimal]
  have : ∀ k n, n < 10 ^ (k + 1) → (toChars 10 n).length ≤ k + 1 := by
    intro k
    induction k with
    | zero => intro n h; rw [toChars, dif_pos (Or.inl (by simpa using h))]; simp
    | succ k ih =>
      intro n h
      rw [toChars]
      split
      · simp
      · have := ih (n / 10) (by rw [Nat.pow_succ] at h; omega)
        simp; omega
  exact this 4 n (by omega)

/-- What is known of the host of a record: that the host parser accepts its text, with that host. -/
structure Good (x : Ctx) (u : Url) (h : Host) (w : List Nat) : Prop where
  text : serializeHost h = some w
  ne_null : h ≠ .null
  parsed : ∃ e, parseHost x.toAscii x.fuel w (!isSpecial u) none = .stop (h, e)
  chars : ∀ c ∈ w, c ≠ 0x40 ∧ c ≠ 0x2F ∧ c ≠ 0x5C ∧ c ≠ 0x3F ∧ c ≠ 0x23 ∧ c ≠ 0x09 ∧ c ≠ 0x0A ∧ c ≠ 0x0D ∧ c < 0x80
  special : isSpecial u = true → w ≠ []
  visible : isSpecial u = false → ∀ c ∈ w, 0x20 < c
  blank : ¬ Blank h → w ≠ []
  loop : ∀ r a t, x.override = none → (w ++ r) <:+ x.input →
    ∀ v : Url, Goes x ⟨.host, v, [], w ++ r, a, false, t⟩ ⟨.host, v, w, r, a, false, t⟩

theorem ends_false {u : Url} {c : Nat} (h : c ≠ 0x2F ∧ c ≠ 0x5C ∧ c ≠ 0x3F ∧ c ≠ 0x23 ∧ c ≠ 0x0A) : endsAuthority u c = false := by
  obtain ⟨h1, h2, h3, h4, h5⟩ := h
  simp [endsAuthority, h1, h2, h3, h4, h5]

theorem forbidden_ne {c : Nat} (h : ¬ Forbidden c) : c ≠ 0x40 ∧ c ≠ 0x2F ∧ c ≠ 0x5C ∧ c ≠ 0x3F ∧ c ≠ 0x23 ∧ c ≠ 0x09 ∧ c ≠ 0x0A ∧
    c ≠ 0x0D ∧ c ≠ 0x3A ∧ c ≠ 0x5B ∧ c ≠ 0x5D := by
  refine ⟨?_, ?_, ?_, ?_, ?_, ?_, ?_, ?_, ?_, ?_, ?_⟩ <;> (rintro rfl; exact h (by decide))

theorem plain_loop {x : Ctx} {w : List Nat} (h : ∀ c ∈ w, c ≠ 0x2F ∧ c ≠ 0x5C ∧ c ≠ 0x3F ∧ c ≠ 0x23 ∧ c ≠ 0x0A ∧ c ≠ 0x3A ∧ c ≠ 0x5B ∧ c ≠ 0x5D) :
    ∀ r a t, x.override = none → (w ++ r) <:+ x.input →
    ∀ v : Url, Goes x ⟨.host, v, [], w ++ r, a, false, t⟩ ⟨.host, v, w, r, a, false, t⟩ := by
  intro r a t ho hr v
  refine host_loop ho v w [] r a t (fun c hc => ?_) hr
  obtain ⟨h1, h2, h3, h4, h5, h6, h7, h8⟩ := h c hc
  exact ⟨h6, h7, h8, ends_false ⟨h1, h2, h3, h4, h5⟩⟩

theorem ipv4_good {x : Ctx} {u : Url} (hA : Settled x.toAscii) (hs : isSpecial u = true) {n : Nat} (hn : n < 2 ^ 32)
    (hf : 9 * (dotted n).length + 9 ≤ x.fuel) : Good x u (.ipv4 n) (dotted n) := by
  have hch := dottedChars n
  have hne : dotted n ≠ [] := by
    intro h
    simp [dotted, Infra.join] at h
  refine ⟨by rw [serializeHost, Verif.Proof.Host4.dotted_eq n hn], by simp, ⟨none, ?_⟩, fun c hc => by have := hch c hc; omega, fun _ => hne,
    fun _ c hc => by have := hch c hc; omega, fun _ => hne, plain_loop fun c hc => by have := hch c hc; omega⟩
  rw [hs, Bool.not_true, parse_plain hne (fun c hc => by have := hch c hc; omega) ?_ (hA.address n hn) _ hf,
    Verif.Proof.Host4.parse_dotted n hn none]
  intro c hc
  have hall : ∀ c < 0x3A, (0x30 ≤ c ∧ c ≤ 0x39) ∨ c = 0x2E → ¬ Forbidden c := by decide
  exact hall c (by have := hch c hc; omega) (hch c hc)

theorem domain_good {x : Ctx} {u : Url} {d q : List Nat} {e : Ec} (hA : Settled x.toAscii) (hs : isSpecial u = true)
    (hq : x.toAscii q none = (d, none)) (h4 : parseIpv4 d none = some (.opaque d, e)) (hF : ∀ c ∈ d, ¬ Forbidden c)
    (hf : 9 * d.length + 9 ≤ x.fuel) : Good x u (.domain d) d := by
  have hne := hA.ne_nil q d hq
  refine ⟨rfl, by simp, ⟨e, ?_⟩, fun c hc => ?_, fun _ => hne, fun h => by simp [hs] at h, fun _ => hne, plain_loop fun c hc => ?_⟩
  · rw [hs, Bool.not_true, parse_plain hne (hA.ascii q d hq) hF (hA.again q d hq) _ hf, h4]
  · have := forbidden_ne (hF c hc)
    have := hA.ascii q d hq c hc
    omega
  · have := forbidden_ne (hF c hc)
    omega

theorem opaque_good {x : Ctx} {u : Url} {s : List Nat} (hs : isSpecial u = false)
    (hF : ∀ c ∈ s, 0x20 < c ∧ c ≤ 0x7E ∧ (c = 0x25 ∨ ¬ Forbidden c)) (hf : 9 * s.length + 9 ≤ x.fuel) : Good x u (.opaque s) s := by
  have hF' : ∀ c ∈ s, 0x20 < c ∧ c ≤ 0x7E ∧ c ≠ 0x40 ∧ c ≠ 0x2F ∧ c ≠ 0x5C ∧ c ≠ 0x3F ∧ c ≠ 0x23 ∧ c ≠ 0x09 ∧ c ≠ 0x0A ∧
    c ≠ 0x0D ∧ c ≠ 0x3A ∧ c ≠ 0x5B ∧ c ≠ 0x5D := by
    intro c hc
    obtain ⟨h1, h2, h3⟩ := hF c hc
    refine ⟨h1, h2, ?_⟩
    rcases h3 with rfl | h3
    · decide
    · exact forbidden_ne h3
  refine ⟨rfl, by simp, ?_, fun c hc => by have := hF' c hc; omega, fun h => by simp [hs] at h,
    fun _ c hc => (hF c hc).1, fun h h' => h (by simpa [Blank] using h'),
    plain_loop fun c hc => by have := hF' c hc; omega⟩
  have h6 : ¬ s.head? = some 0x5B := by
    intro h
    cases s with
    | nil => simp at h
    | cons c s => simp at h; exact (hF' c (by simp)).2.2.2.2.2.2.2.2.2.2.2.1 h
  have h7 : ¬ (s.any (fun cp => isForbidden cp && cp != 0x25) = true) := by
    rw [List.any_eq_true]
    rintro ⟨c, hc, h⟩
    simp [Verif.Proof.HostParse.forbidden_iff] at h
    exact (hF c hc).2.2.elim (fun hh => h.2 hh) (fun hh => hh h.1)
  rw [hs, Bool.not_false, parseHost, if_neg h6, if_pos rfl]
  unfold parseOpaqueHost
  rw [if_neg h7]
  have := utf8_enc s (fun c hc => scalar_small (by have := hF c hc; omega)) .c0 x.fuel (by omega)
  rw [enc_all fun c hc => ?_] at this
  · rw [show setOf .c0 = isC0ControlSet from rfl] at this
    rw [this]
    exact ⟨_, rfl⟩
  · have := hF c hc
    simp [InSet, printable]
    exact ⟨by omega, by omega, by simp [codes]⟩

theorem ipv6_good {x : Ctx} {u : Url} {a : List Nat} (h8 : a.length = 8) (hv : ∀ v ∈ a, v < 65536) (hz : zeroRuns a ≤ 2)
    (hf : (serializeIpv6 a).length + 2 ≤ x.fuel) : Good x u (.ipv6 a) (0x5B :: (serializeIpv6 a ++ [0x5D])) := by
  have hch := v6Chars (compressOf a) a 0 false
  obtain ⟨t, h1, h2⟩ := Verif.Props.Host.C75_bracket x.toAscii a h8 hv hz (!isSpecial u) none
  rw [serializeHost] at h1
  injection h1 with h1
  refine ⟨by simp [serializeHost], by simp, ⟨none, ?_⟩, fun c hc => ?_, by simp, fun _ c hc => ?_, by simp, ?_⟩
  · have := h2 x.fuel (by rw [← h1]; simp; omega)
    rw [← h1] at this
    simpa using this
  · simp only [List.mem_cons, List.mem_append, List.not_mem_nil, or_false] at hc
    rcases hc with rfl | hc | rfl
    · decide
    · have := hch c hc; omega
    · decide
  · simp only [List.mem_cons, List.mem_append, List.not_mem_nil, or_false] at hc
    rcases hc with rfl | hc | rfl
    · decide
    · have := hch c hc; omega
    · decide
  · intro r a' t ho hr v
    have := host_bracket ho v (serializeIpv6 a) r a' t (fun c hc => by
      have := hch c hc
      exact ⟨by omega, by omega, ends_false (by omega)⟩) (by simpa using hr)
    simpa using this

/-! ### The whole -/

/-- The text of credentials. -/
def userText (user pass : List Nat) : List Nat := if user = [] ∧ pass = [] then [] else credText user pass ++ [0x40]

/-- The text of a port. -/
def portText : Option Nat → List Nat
  | none => []
  | some p => 0x3A :: decimal p

section
variable {x : Ctx} (ho : x.override = none) (hb : x.base = none) (hc : CInv x)

theorem userinfo_ne {c : Nat} (h : ¬ InSet .userinfo c) : c ≠ 0x40 ∧ c ≠ 0x2F ∧ c ≠ 0x5C ∧ c ≠ 0x3F ∧ c ≠ 0x23 ∧ c ≠ 0x0A ∧ c ≠ 0x20 := by
  refine ⟨?_, ?_, ?_, ?_, ?_, ?_, ?_⟩ <;> (rintro rfl; exact h (by decide))

theorem credText_chars {user pass : List Nat} (hu : ∀ c ∈ user, ¬ InSet .userinfo c) (hp : ∀ c ∈ pass, ¬ InSet .userinfo c) :
    ∀ c ∈ credText user pass, 0x20 < c ∧ c ≤ 0x7E ∧ c ≠ 0x40 ∧ c ≠ 0x2F ∧ c ≠ 0x5C ∧ c ≠ 0x3F ∧ c ≠ 0x23 := by
  have key : ∀ c, ¬ InSet .userinfo c → 0x20 < c ∧ c ≤ 0x7E ∧ c ≠ 0x40 ∧ c ≠ 0x2F ∧ c ≠ 0x5C ∧ c ≠ 0x3F ∧ c ≠ 0x23 := by
    intro c h
    have h1 := userinfo_ne h
    unfold InSet at h
    omega
  intro c hc
  unfold credText at hc
  rcases List.mem_append.mp hc with hc | hc
  · exact key c (hu c hc)
  · split at hc
    · rcases List.mem_cons.mp hc with rfl | hc
      · decide
      · exact key c (hp c hc)
    · simp at hc

theorem portText_chars (p : Option Nat) : ∀ c ∈ portText p, 0x30 ≤ c ∧ c ≤ 0x3A := by
  intro c hc
  cases p with
  | none => simp [portText] at hc
  | some p =>
    rcases List.mem_cons.mp hc with rfl | hc
    · decide
    · have := Verif.Proof.Host4.decimal_digit p c hc
      omega

include ho hc in
/-- The authority, up to the path. -/
theorem authority_goes {t user pass w r : List Nat} {h : Host} {port : Option Nat} (hu : ∀ c ∈ user, ¬ InSet .userinfo c)
    (hp : ∀ c ∈ pass, ¬ InSet .userinfo c) (hg : Good x { scheme := t } h w)
    (hcr : user ≠ [] ∨ pass ≠ [] ∨ port ≠ none → ¬ Blank h)
    (hport : ∀ p, port = some p → p < 65535 ∧ (t, some p) ∉ specials) (he : endsAuthority { scheme := t } (headOf r) = true)
    (hr : (userText user pass ++ (w ++ (portText port ++ r))) <:+ x.input) :
    ∃ a k, Goes x ⟨.authority, { scheme := t }, [], userText user pass ++ (w ++ (portText port ++ r)), false, false, false⟩
      ⟨.pathStart, { scheme := t, username := user, password := pass, host := some h, port := port }, [], r, a, false, k⟩ := by
  have hr1 : (w ++ (portText port ++ r)) <:+ x.input := (List.suffix_append _ _).trans hr
  have hr2 : (portText port ++ r) <:+ x.input := (List.suffix_append _ _).trans hr1
  -- behind the credentials
  have s1 : ∃ a k, (a = true → user ≠ [] ∨ pass ≠ []) ∧
      Goes x ⟨.authority, { scheme := t }, [], userText user pass ++ (w ++ (portText port ++ r)), false, false, false⟩
        ⟨.authority, { scheme := t, username := user, password := pass }, [], w ++ (portText port ++ r), a, false, k⟩ := by
    by_cases hno : user = [] ∧ pass = []
    · obtain ⟨rfl, rfl⟩ := hno
      exact ⟨false, false, by simp, Goes.refl x _⟩
    · have hno' : user ≠ [] ∨ pass ≠ [] := by by_cases user = [] <;> simp_all
      unfold userText at hr ⊢
      rw [if_neg hno, List.append_assoc] at hr ⊢
      have e1 := authority_loop (x := x) { scheme := t } (credText user pass) [] _ false false (fun c hc => by
        have := credText_chars hu hp c hc
        exact ⟨by omega, ends_false (by omega)⟩) hr
      obtain ⟨k, e2⟩ := authority_at hc (u := { scheme := t }) (r := w ++ (portText port ++ r)) rfl rfl hu hp
        ((List.suffix_append (credText user pass) _).trans hr)
      exact ⟨true, k, fun _ => hno', e1.trans e2⟩
  obtain ⟨a, k, hak, s1⟩ := s1
  refine ⟨a, k, s1.trans ?_⟩
  -- to the end of the authority and back
  have s2 := authority_loop (x := x) { scheme := t, username := user, password := pass } (w ++ portText port) [] r a k (fun c hc => by
    rcases List.mem_append.mp hc with hc | hc
    · have := hg.chars c hc
      exact ⟨this.1, ends_false (by omega)⟩
    · have := portText_chars port c hc
      exact ⟨by omega, ends_false (by omega)⟩) (by rw [List.append_assoc]; exact hr1)
  rw [List.nil_append] at s2
  have s3 := authority_end (x := x) (u := { scheme := t, username := user, password := pass }) (w := w ++ portText port) (r := r)
    (a := a) (t := k) he (fun ha hw => by
      have : w = [] := (List.append_eq_nil_iff.mp hw).1
      exact hg.blank (hcr ((hak ha).elim Or.inl (fun h => Or.inr (Or.inl h)))) this) (by rw [List.append_assoc]; exact hr1)
  have s23 := s2.trans s3
  rw [List.append_assoc] at s23
  refine s23.trans ?_
  have s4 := hg.loop (portText port ++ r) a k ho hr1 { scheme := t, username := user, password := pass }
  refine s4.trans ?_
  have hpar : ∃ e, parseHost x.toAscii x.fuel w (!isSpecial { scheme := t, username := user, password := pass }) none = .stop (h, e) := hg.parsed
  cases port with
  | none => exact host_end ho (u := { scheme := t, username := user, password := pass }) hg.special hg.ne_null hpar hr2 he
  | some p =>
    obtain ⟨h1, h2⟩ := hport p rfl
    have hw : w ≠ [] := hg.blank (hcr (by simp))
    have hr3 : (decimal p ++ r) <:+ x.input := (List.suffix_cons 0x3A _).trans hr2
    refine (host_colon ho (u := { scheme := t, username := user, password := pass }) hw hg.ne_null hpar hr2).trans ?_
    refine (port_digits (x := x) _ (decimal p) [] r a k (Verif.Proof.Host4.decimal_digit p) hr3).trans ?_
    exact port_end ho (u := { scheme := t, username := user, password := pass, host := some h }) (numeral_decimal p) h1
      (decimal_length (by omega)) h2 ((List.suffix_append _ _).trans hr3) he

include ho hc in
/-- Path, query and fragment behind an authority. -/
theorem rest_finishes {v : Url} {ps : List (List Nat)} {q f : Option (List Nat)} {a t : Bool} (h0 : v.path = []) (h1 : v.query = none) (h2 : v.fragment = none)
    (hne : isSpecial v = true → ps ≠ []) (hk : ∀ p ∈ ps, Keeps v p)
    (hd : v.scheme = codes "file" → ∀ p, ps.head? = some p → isWindowsDriveLetter p = true → p[1]? = some 0x3A)
    (hq : ∀ w, q = some w → ∀ c ∈ w, ¬ InSet .query c ∧ (Special v.scheme → ¬ InSet .specialQuery c))
    (hf : ∀ w, f = some w → ∀ c ∈ w, ¬ InSet .fragment c) (hr : (segsText ps ++ (queryText q ++ fragmentText f)) <:+ x.input) :
    Finishes x ⟨.pathStart, v, [], segsText ps ++ (queryText q ++ fragmentText f), a, false, t⟩
      { v with path := ps, query := q, fragment := f } := by
  cases ps with
  | nil =>
    have hs : isSpecial v = false := by
      cases h : isSpecial v with
      | false => rfl
      | true => exact absurd rfl (hne h)
    have := tail_finishes ho hc (g := fun r => ⟨.pathStart, v, [], r, a, false, t⟩) (fun r hr => pathStart_query ho hs hr)
      (fun r hr => pathStart_fragment ho hs hr) (pathStart_ends hs) h1 h2 hq hf hr
    rw [h0] at this
    exact this
  | cons p ps =>
    have e : segsText (p :: ps) ++ (queryText q ++ fragmentText f) = 0x2F :: (p ++ (segsText ps ++ (queryText q ++ fragmentText f))) := by
      simp [segsText]
    rw [e] at hr ⊢
    refine (pathStart_slash hr).ends ?_
    have := path_finishes ho hc (a := a) (t := t) ps p v h1 h2 hk (fun hs _ => hd hs p rfl) hq hf ((List.suffix_cons _ _).trans hr)
    rw [h0] at this
    exact this

end

end Verif.Proof.UrlWhole
