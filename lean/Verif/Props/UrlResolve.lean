import Verif.Proof.UrlJoin
import Verif.Props.UrlText
/- Properties C127-C129: what a text means beside a base URL. -/
namespace Verif.Props.UrlResolve
open Verif.Model.Coder Verif.Model.Legacy Verif.Model.Percent Verif.Model.Host Verif.Model.Url
open Verif.Spec Verif.Spec.Percent Verif.Spec.Host Verif.Spec.Url Verif.Spec.UrlText Verif.Spec.UrlSet Verif.Spec.UrlResolve
open Verif.Proof.UrlApi Verif.Proof.UrlAgain Verif.Proof.UrlResolve Verif.Proof.UrlJoin
open Verif.Props.Url Verif.Props.UrlText

variable {toAscii : List Nat → Ec → List Nat × Ec} {fuel n : Nat} {i : List Nat}

theorem tidied_ne (i : List Nat) : ∀ c ∈ cleaned (trimmed i), c ≠ 0x0A := Verif.Props.UrlSet.cleaned_ne _

/-! ### C127: references without a host -/

/-- C127. A reference without scheme and host, or with the special scheme of the base in front, means what `target` says. -/
theorem C127_reference {b : Url} (hb : ValidUrl b) (hcb : b.cannotBeBase = false) (hi : ∀ c ∈ i, IsScalar c) (hf : 9 * i.length + 20 ≤ fuel)
    (hn : 48 * i.length + 101 ≤ n) {r : List Nat} (hr : Refers b (tidied i) r) (hh : ¬ HasHost b.scheme r) :
    create toAscii fuel n i (some b) = .stop (some (target b r)) := by
  rw [← tidied_eq] at hr
  obtain ⟨s', k, hu, h⟩ := target_reads (x := parseCtx toAscii fuel i (some b)) rfl (parse_cinv toAscii fuel i hi hf _) (tidied_ne i) rfl hb hcb hr hh
    (parseSt i .UTF_8).ec
  rw [create_of hi hf hn h, ← hu]
  rfl

/-- C127. Beside a base that cannot be one, only a fragment means something. -/
theorem C127_cannot {b : Url} (hb : ValidUrl b) (hcb : b.cannotBeBase = true) (hi : ∀ c ∈ i, IsScalar c) (hf : 9 * i.length + 20 ≤ fuel)
    (hn : 48 * i.length + 101 ≤ n) (hr : ¬ HasScheme (tidied i)) :
    (∀ f, tidied i = 0x23 :: f → create toAscii fuel n i (some b) = .stop (some { b with fragment := some (encoded .fragment f) })) ∧
    ((∀ f, tidied i ≠ 0x23 :: f) → create toAscii fuel n i (some b) = .stop none) := by
  rw [← tidied_eq] at *
  constructor
  · intro f e
    obtain ⟨s', k, hu, h⟩ := cannot_fragment (x := parseCtx toAscii fuel i (some b)) rfl (parse_cinv toAscii fuel i hi hf _) (tidied_ne i) rfl hb hcb e
      (parseSt i .UTF_8).ec
    rw [create_of hi hf hn h]
    show Ends.stop (some s'.url) = _
    rw [hu]
    rfl
  · intro e
    obtain ⟨s', k, h⟩ := refers_nothing (x := parseCtx toAscii fuel i (some b)) rfl hr (by rintro b' h; cases h; exact ⟨hcb, e⟩) (parseSt i .UTF_8).ec
    rw [create_of hi hf hn h]
    rfl

/-- C127. Without a base, a text without a scheme is no URL. -/
theorem C127_nothing (hi : ∀ c ∈ i, IsScalar c) (hf : 9 * i.length + 20 ≤ fuel) (hn : 48 * i.length + 101 ≤ n) (hr : ¬ HasScheme (tidied i)) :
    create toAscii fuel n i none = .stop none := by
  rw [← tidied_eq] at hr
  obtain ⟨s', k, h⟩ := refers_nothing (x := parseCtx toAscii fuel i none) rfl hr (by rintro b' h; cases h) (parseSt i .UTF_8).ec
  rw [create_of hi hf hn h]
  rfl

instance (c : Nat) : Decidable (Lower c) := by unfold Lower; infer_instance

/-- A record that the constructor makes, for examples. -/
theorem seen {s : String} {u : Url} (h : first s (fun v => decide (v = u)) = true) : Reachable plain u ∧ ValidUrl u := by
  obtain ⟨v, _, hv, e⟩ := first_of h
  obtain rfl := of_decide_eq_true e
  exact ⟨hv, reachable_valid plain_settled.ne_nil hv⟩

theorem no_scheme {c : Nat} {s : List Nat} (h : ¬ Lower (Verif.Spec.Infra.lower c)) : ¬ HasScheme (c :: s) := by
  rintro ⟨w, t, ⟨a, v, rfl, hl, _⟩, e⟩
  injection e with e _
  subst e
  exact h hl

/-- `http://u@h:8080/a/b?q#z`. -/
def page : Url :=
  { scheme := codes "http", username := codes "u", host := some (.domain (codes "h")), port := some 8080, path := [codes "a", codes "b"]
    query := some (codes "q"), fragment := some (codes "z") }

theorem page_valid : ValidUrl page := (seen (s := "http://u@h:8080/a/b?q#z") (by decide +kernel)).2

/-- ` ../c;x\d?{y}#{f}` and `http:?k` beside `http://u@h:8080/a/b?q#z`. -/
example : ValidUrl page ∧ page.cannotBeBase = false ∧
    Refers page (tidied (codes " ../c;x\\d?{y}#{f}")) (codes "../c;x\\d?{y}#{f}") ∧ ¬ HasHost page.scheme (codes "../c;x\\d?{y}#{f}") ∧
    target page (codes "../c;x\\d?{y}#{f}") = { page with path := [codes "c;x", codes "d"], query := some (codes "{y}"), fragment := some (codes "{f}") } ∧
    Refers page (tidied (codes "HTTP:?k")) (codes "?k") ∧ target page (codes "?k") = { page with query := some (codes "k"), fragment := none } := by
  refine ⟨page_valid, rfl, .inl ⟨by decide +kernel, by
    rw [show codes "../c;x\\d?{y}#{f}" = 0x2E :: codes "./c;x\\d?{y}#{f}" by decide +kernel]; exact no_scheme (by decide)⟩, ?_, by decide +kernel, .inr ⟨codes "HTTP", ?_, by decide +kernel, by decide +kernel,
    by decide +kernel⟩, by decide +kernel⟩
  · rintro ⟨c, d, s, e, h, _⟩
    have e1 : (codes "../c;x\\d?{y}#{f}").head? = some c := by rw [e]; rfl
    obtain rfl : (0x2E : Nat) = c := by
      have : (codes "../c;x\\d?{y}#{f}").head? = some 0x2E := by decide +kernel
      rw [this] at e1
      injection e1
    revert h
    decide +kernel
  · exact ⟨0x48, codes "TTP", by decide +kernel, by decide, by decide +kernel⟩

/-- `\\c` beside `file:///C:/a/b` stays on the drive; `D|/x` does not. -/
example : ValidUrl { scheme := codes "file", host := some .empty, path := [codes "C:", codes "a", codes "b"] } ∧
    target { scheme := codes "file", host := some .empty, path := [codes "C:", codes "a", codes "b"] } (codes "\\c") =
      { scheme := codes "file", host := some .empty, path := [codes "C:", codes "c"] } ∧
    target { scheme := codes "file", host := some .empty, path := [codes "C:", codes "a", codes "b"] } (codes "D|/x") =
      { scheme := codes "file", host := some .empty, path := [codes "D:", codes "x"] } :=
  ⟨(seen (s := "file:///C:/a/b") (by decide +kernel)).2, by decide +kernel, by decide +kernel⟩

/-- `#f` and `x` beside `mailto:a`. -/
example : ValidUrl { scheme := codes "mailto", path := [codes "a"], cannotBeBase := true } ∧ ¬ HasScheme (tidied (codes "#f")) ∧
    tidied (codes "#f") = 0x23 :: codes "f" ∧ ¬ HasScheme (tidied (codes "/x")) ∧ ∀ f, tidied (codes "/x") ≠ 0x23 :: f :=
  ⟨(seen (s := "mailto:a") (by decide +kernel)).2, by rw [show tidied (codes "#f") = 0x23 :: codes "f" by decide +kernel]; exact no_scheme (by decide),
    by decide +kernel, by rw [show tidied (codes "/x") = 0x2F :: codes "x" by decide +kernel]; exact no_scheme (by decide),
    by rw [show tidied (codes "/x") = 0x2F :: codes "x" by decide +kernel]; simp⟩

/-! ### C128: texts with a scheme -/

/-- C128. A text with a scheme means the same beside the base as alone, unless the scheme is special, that of the base, and not in front
of a host. -/
theorem C128_absolute {b : Url} (hi : ∀ c ∈ i, IsScalar c) (hf : 9 * i.length + 20 ≤ fuel) (hn : 48 * i.length + 101 ≤ n) {w r : List Nat}
    (hw : SchemeText w) (hr : tidied i = w ++ 0x3A :: r) (ha : Absolute b w r) :
    create toAscii fuel n i (some b) = create toAscii fuel n i none := by
  rw [← tidied_eq] at hr
  refine absolute hi hf hn hw hr (ha.imp id (Or.imp (fun h => ?_) id)) (Or.inr (Or.inl fun u h => by cases h))
  rintro u h
  cases h
  exact h

/-- C128, partial. The text of a URL means this URL beside every base. Missing: the URLs that are not read from their text, see C113. -/
theorem C128_text_partial (hA : Settled toAscii) {u : Url} (hu : Reachable toAscii u) (hr : Readable u) :
    ∃ t, serializeUrl u false = some t ∧ ∀ (b : Url) (fuel n : Nat), 9 * t.length + 20 ≤ fuel → 48 * t.length + 101 ≤ n →
      create toAscii fuel n t (some b) = .stop (some u) := by
  have hv := reachable_valid hA.ne_nil hu
  obtain ⟨t, ht, hp⟩ := C113_partial hA hu hr
  obtain ⟨t', ht', has⟩ := C113_ascii_partial hA hu hr
  obtain rfl : t = t' := by rw [ht'] at ht; injection ht with ht; exact ht.symm
  refine ⟨t, ht, fun b fuel n hf hn => ?_⟩
  rw [← hp fuel n hf hn]
  obtain ⟨t2, ht2, hcl, _⟩ := Verif.Proof.UrlReadAll.text_whole hA hv (Verif.Proof.UrlKept.reachable_kept hu) hr
  obtain rfl : t = t2 := by rw [ht2] at ht; injection ht with ht; exact ht.symm
  obtain ⟨hw, hlow⟩ := lower_ok hv.scheme
  have hshape : ∃ r, t = u.scheme ++ 0x3A :: r ∧ (Special u.scheme → ∃ s, r = 0x2F :: 0x2F :: s) := by
    unfold serializeUrl at ht
    dsimp only at ht
    split at ht
    · rename_i a p ha _
      injection ht with ht
      refine ⟨_, by rw [← ht]; simp only [List.append_assoc, List.singleton_append]; rfl, fun hs => ?_⟩
      have := (hv.special hs).1
      split at ha
      · exact absurd (by assumption) this
      · split at ha
        · cases ha
        · injection ha with ha
          rw [← ha]
          exact ⟨_, by simp only [List.append_assoc, List.cons_append, List.nil_append]; rfl⟩
    · cases ht
  obtain ⟨r, e, h2⟩ := hshape
  refine C128_absolute (fun c hc => ?_) hf hn hw (by rw [← tidied_eq, hcl]; exact e) ?_
  · have := has c hc
    exact Or.inl (by omega)
  · unfold Absolute
    rw [hlow]
    by_cases hs : Special u.scheme
    · obtain ⟨s, rfl⟩ := h2 hs
      exact Or.inr (Or.inr ⟨_, _, s, rfl, by simp [isSlash], by simp [isSlash]⟩)
    · exact Or.inl hs

/-- Beside `http://u@h:8080/a/b?q#z`: `a:b`, `https:x` and `http:/\\h`. -/
example : SchemeText (codes "a") ∧ SchemeText (codes "https") ∧ SchemeText (codes "http") ∧ Absolute page (codes "a") (codes "b") ∧
    Absolute page (codes "https") (codes "x") ∧ Absolute page (codes "http") (codes "/\\h") :=
  ⟨⟨0x61, [], by decide +kernel, by decide, by simp⟩, ⟨0x68, codes "ttps", by decide +kernel, by decide, by decide +kernel⟩,
    ⟨0x68, codes "ttp", by decide +kernel, by decide, by decide +kernel⟩, .inl (by decide +kernel), .inr (.inl (by decide +kernel)),
    .inr (.inr ⟨0x2F, 0x5C, codes "h", by decide +kernel, by decide +kernel, by decide +kernel⟩)⟩

/-- The others do depend on the base: `http:x` alone has the host `x`. -/
example : create plain 600 2500 (codes "http:x") none ≠ create plain 600 2500 (codes "http:x") (some page) := by decide +kernel

/-- Records like this have a text, see C113. -/
example : Reachable plain page ∧ Readable page := by
  refine ⟨(seen (s := "http://u@h:8080/a/b?q#z") (by decide +kernel)).1, ⟨?_, ?_, ?_, ?_, ?_, ?_⟩⟩
  · simp [page]
  · intro h; exact absurd h (by decide +kernel)
  · intro h; exact absurd h (by decide +kernel)
  · simp [page]
  · simp [page]
  · simp [page]

/-! ### C129: references with a host -/

/-- C129. A reference with a host and without a scheme means what it means behind the scheme of the base. -/
theorem C129_host {b : Url} (hb : ValidUrl b) (hcb : b.cannotBeBase = false) (hi : ∀ c ∈ i, IsScalar c)
    (hf : 9 * (i.length + b.scheme.length + 1) + 20 ≤ fuel) (hn : 48 * (i.length + b.scheme.length + 1) + 101 ≤ n) (hs : ¬ HasScheme (tidied i))
    (hh : HasHost b.scheme (tidied i)) :
    create toAscii fuel n i (some b) = create toAscii fuel n (b.scheme ++ 0x3A :: tidied i) none := by
  have hl : (tidied i).length ≤ i.length := by
    rw [← tidied_eq]
    have := cleaned_le (trimmed i)
    have := trimmed_le i
    omega
  have hj := tidied_front hb.scheme i
  rw [← tidied_eq] at hs hh
  refine hosted hb.scheme hcb hi ?_ (by omega) (by simp; omega) (by omega) (by simp; omega) hs hh (by rw [tidied_eq, tidied_eq, hj])
  intro c hc
  rcases List.mem_append.mp hc with hc | hc
  · obtain ⟨a, r, e, h1, h2⟩ := hb.scheme
    have hp : codes "+-." = [0x2B, 0x2D, 0x2E] := by decide
    rw [hp] at h2
    simp only [Lower, List.mem_cons, List.not_mem_nil, or_false] at h1 h2
    rw [e] at hc
    left
    rcases List.mem_cons.mp hc with rfl | hc
    · omega
    · have := h2 c hc; omega
  · rcases List.mem_cons.mp hc with rfl | hc
    · exact Or.inl (by decide)
    · rw [← tidied_eq] at hc
      exact hi c (trimmed_mem (cleaned_mem hc).1)

/-- `//k/p` and `\\\\k` beside `http://u@h:8080/a/b?q#z`: the port and the user are not those of the base. -/
example : ¬ HasScheme (tidied (codes "//k/p")) ∧ HasHost page.scheme (tidied (codes "//k/p")) ∧ HasHost page.scheme (tidied (codes "\\\\k")) ∧
    create plain 600 2500 (page.scheme ++ 0x3A :: tidied (codes "//k/p")) none =
      .stop (some { scheme := codes "http", host := some (.domain (codes "k")), path := [codes "p"] }) :=
  ⟨by rw [show tidied (codes "//k/p") = 0x2F :: codes "/k/p" by decide +kernel]; exact no_scheme (by decide),
    ⟨0x2F, 0x2F, codes "k/p", by decide +kernel, by decide +kernel, by decide +kernel⟩,
    ⟨0x5C, 0x5C, codes "k", by decide +kernel, by decide +kernel, by decide +kernel⟩, by decide +kernel⟩

end Verif.Props.UrlResolve
