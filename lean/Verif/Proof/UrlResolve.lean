import Verif.Proof.UrlSetters
import Verif.Proof.UrlWhole
import Verif.Spec.UrlResolve
/- The URL parser on a reference and its base. -/
namespace Verif.Proof.UrlResolve
open Verif.Model.Infra Verif.Model.Unicode Verif.Model.Coder Verif.Model.Legacy Verif.Model.Percent Verif.Model.Host Verif.Model.Url
open Verif.Spec Verif.Spec.Percent Verif.Spec.Host Verif.Spec.Url Verif.Spec.UrlSet Verif.Spec.UrlResolve
open Verif.Proof.UrlInner Verif.Proof.UrlEnds Verif.Proof.UrlValid Verif.Proof.UrlStep Verif.Proof.UrlApi Verif.Proof.UrlPort
open Verif.Proof.UrlAgain Verif.Proof.UrlSetters Verif.Proof.UrlWhole Verif.Props.Percent

/-! ### Cutting a text -/

theorem cut_text (m : Nat) (s : List Nat) : (∀ c ∈ (cut m s).1, c ≠ m) ∧ s = (cut m s).1 ++ (match (cut m s).2 with | none => [] | some t => m :: t) := by
  induction s with
  | nil => simp [cut]
  | cons c s ih =>
    rw [cut]
    by_cases h : c = m
    · rw [if_pos h]; simp [h]
    · rw [if_neg h]
      refine ⟨?_, ?_⟩
      · intro d hd
        rcases List.mem_cons.mp hd with rfl | hd
        · exact h
        · exact ih.1 d hd
      · show c :: s = c :: (_ ++ _)
        rw [← ih.2]

theorem query_text (q : Option (List Nat)) : (match q with | none => [] | some t => 0x3F :: t) = queryText q := by cases q <;> rfl

theorem fragment_text (q : Option (List Nat)) : (match q with | none => [] | some t => 0x23 :: t) = fragmentText q := by cases q <;> rfl

section
variable {x : Ctx} (ho : x.override = none) (hc : CInv x) (hn : ∀ c ∈ x.input, c ≠ 0x0A)

/-! ### The end of a reference -/

include ho hc hn in
theorem query_tail (u : Url) (hu : u.fragment = none) (f : Option (List Nat)) (w : List Nat) : ∀ (b : List Nat), (∀ c ∈ w, c ≠ 0x23) →
    (b ++ (w ++ fragmentText f)) <:+ x.input →
    Finishes x ⟨.query, { u with query := some [] }, b, w ++ fragmentText f, false, false, false⟩
      { u with query := some (enc8 (querySet u) (b ++ w)), fragment := f.map (enc8 .fragment) } := by
  induction w with
  | nil =>
    intro b _ hr
    rw [List.append_nil, List.nil_append] at *
    have hs : ∀ c ∈ b, IsScalar c := fun c hm => suffix_scalar hc hr c (by simp [hm])
    have hl := hr.length_le
    rw [List.length_append] at hl
    have e := utf8_enc b hs (querySet u) x.fuel (by have := hc.fuel; omega)
    unfold utf8PercentEncode at e
    have e2 := query_set { u with query := some [] }
    rw [show querySet { u with query := some [] } = querySet u from rfl] at e2
    cases f with
    | none =>
      have : ({ u with query := some (enc8 (querySet u) b), fragment := Option.map (enc8 .fragment) none } : Url) =
          { u with query := some (enc8 (querySet u) b) } := by cases u; simp_all
      rw [this]
      refine ends_step fun ec => ?_
      simp only [step, Cfg.st, fragmentText]
      rw [at_rest List.nil_suffix, onQuery, headOf]
      simp only [ne_eq, not_true_eq_false, false_and, if_false]
      rw [if_pos (by simp), e2, e]
      dsimp only
      rw [if_neg (by simp)]
      exact ⟨_, by simp, by simp, rfl⟩
    | some f =>
      have hf : (0x23 :: f) <:+ x.input := (List.suffix_append _ _).trans hr
      have hf' : f <:+ x.input := (List.suffix_cons _ _).trans hf
      have h2 := fragment_reads hc { u with query := some (enc8 (querySet u) b) } f [] (fun c h => hn c (hf'.mem h)) hf'
      refine Goes.ends ?_ h2
      refine goes_step fun ec => ⟨ec, ?_⟩
      simp only [step, Cfg.st, fragmentText]
      rw [at_rest hf, onQuery, headOf]
      simp only [ne_eq, not_true_eq_false, false_and, if_false]
      rw [if_pos (by simp [ho]), e2, e]
      dsimp only
      simp only [if_true]
      simp
      omega
  | cons c w ih =>
    intro b hw hr
    have hcr : (c :: (w ++ fragmentText f)) <:+ x.input := (List.suffix_append _ _).trans hr
    have h2 := ih (b ++ [c]) (fun d hd => hw d (by simp [hd])) (by simpa using hr)
    rw [List.append_assoc, List.singleton_append] at h2
    refine Goes.ends ?_ h2
    refine goes_step fun ec => ?_
    simp only [step, Cfg.st, List.cons_append]
    rw [at_rest hcr, onQuery, headOf]
    simp only [ne_eq, not_true_eq_false, false_and, if_false]
    rw [if_neg (by rintro (⟨_, h⟩ | h); exacts [hw c (by simp) h, hn c (hcr.mem (by simp)) h]), badIf_ec, badIf_ec]
    dsimp only
    generalize ecIf _ _ = e
    exact ⟨e, by simp; omega⟩

include ho hc hn in
/-- A path, a query and a fragment. -/
theorem path_tail (u : Url) (h1 : u.query = none) (h2 : u.fragment = none) (q f : Option (List Nat)) (hq : ∀ t, q = some t → ∀ c ∈ t, c ≠ 0x23)
    (w : List Nat) : ∀ (b : List Nat) (ps : List (List Nat)), (∀ c ∈ w, c ≠ 0x3F ∧ c ≠ 0x23) → (∀ c ∈ b, IsScalar c) →
    (w ++ (queryText q ++ fragmentText f)) <:+ x.input →
    Finishes x ⟨.path, { u with path := ps }, enc8 .path b, w ++ (queryText q ++ fragmentText f), false, false, false⟩
      { u with path := walk (isFile u) ps ((glue b (pieces (slashes u) w)).map (enc8 .path)), query := q.map (enc8 (querySet u)),
               fragment := f.map (enc8 .fragment) } := by
  induction w with
  | nil =>
    intro b ps _ hb hr
    rw [List.nil_append] at hr ⊢
    have hp := push_enter { u with path := ps } (enc8 .path b) (enc_ascii hb) false
    have hpath : walk (isFile u) ps ((glue b (pieces (slashes u) [])).map (enc8 .path)) = enter (isFile u) true ps (enc8 .path b) := by
      simp [pieces, glue, walk]
    rw [hpath]
    cases q with
    | none =>
      rw [queryText, List.nil_append] at hr ⊢
      cases f with
      | none =>
        have := path_ends (x := x) (a := false) (t := false) hp
        have e : ({ u with path := enter (isFile u) true ps (enc8 .path b), query := Option.map (enc8 (querySet u)) none, fragment := Option.map (enc8 .fragment) none } : Url) =
          { u with path := enter (isFile u) true ps (enc8 .path b) } := by cases u; simp_all
        rw [e]
        exact this
      | some f =>
        have hf' : f <:+ x.input := (List.suffix_cons _ _).trans hr
        have e := fragment_reads hc { u with path := enter (isFile u) true ps (enc8 .path b) } f [] (fun c h => hn c (hf'.mem h)) hf'
        have e2 : ({ u with path := enter (isFile u) true ps (enc8 .path b), query := Option.map (enc8 (querySet u)) none, fragment := Option.map (enc8 .fragment) (some f) } : Url) =
          { u with path := enter (isFile u) true ps (enc8 .path b), fragment := some ([] ++ enc8 .fragment f) } := by cases u; simp_all
        rw [e2]
        exact (path_fragment ho hp hr).ends e
    | some q =>
      have hq' : (q ++ fragmentText f) <:+ x.input := (List.suffix_cons _ _).trans hr
      have e := query_tail ho hc hn { u with path := enter (isFile u) true ps (enc8 .path b) } h2 f q [] (hq q rfl) hq'
      exact (path_query ho hp hr).ends e
  | cons c w ih =>
    intro b ps hw hb hr
    have hw' : (w ++ (queryText q ++ fragmentText f)) <:+ x.input := (List.suffix_cons c _).trans hr
    have hn' : ∀ d ∈ w, d ≠ 0x3F ∧ d ≠ 0x23 := fun d hd => hw d (by simp [hd])
    have hc0 := hn c (hr.mem (by simp))
    obtain ⟨hc1, hc2⟩ := hw c (by simp)
    obtain ⟨q', qs, hq'⟩ := pieces_cons (slashes u) w
    rw [pieces]
    by_cases hs : slashes u c = true
    · rw [if_pos hs]
      have h2 := ih [] (enter (isFile u) false ps (enc8 .path b)) hn' (by simp) hw'
      rw [hq'] at h2 ⊢
      simp only [glue, List.nil_append, List.map_cons, List.append_nil, walk] at h2 ⊢
      refine Goes.ends ?_ h2
      refine goes_step fun ec => ?_
      simp only [step, Cfg.st, List.cons_append] at hr ⊢
      rw [at_rest hr, onPath, headOf]
      dsimp only
      rw [slashes_eq]
      rw [show slashes { u with path := ps } c = true from hs]
      rw [if_pos (by simp), badIf_ec]
      dsimp only
      rw [push_enter _ _ (enc_ascii hb)]
      dsimp only
      rw [if_neg hc1, if_neg hc2]
      generalize ecIf _ _ = e
      exact ⟨e, by simp [enc8]; omega⟩
    · rw [if_neg hs]
      have h2 := ih (b ++ [c]) ps hn' (by
        intro d hd
        rcases List.mem_append.mp hd with hd | hd
        · exact hb d hd
        · obtain rfl := List.mem_singleton.mp hd
          exact suffix_scalar hc hr d (by simp)) hw'
      rw [hq'] at h2 ⊢
      simp only [glue, List.append_assoc, List.cons_append, List.nil_append] at h2 hr ⊢
      refine Goes.ends ?_ h2
      refine goes_step fun ec => ?_
      simp only [step, Cfg.st]
      rw [at_rest hr, onPath, headOf]
      dsimp only
      rw [slashes_eq]
      rw [show slashes { u with path := ps } c = false from Bool.eq_false_iff.mpr hs]
      rw [if_neg (by simp [hc0, hc1, hc2])]
      rw [show isPathSet = setOf .path from rfl, cp_enc c (suffix_scalar hc hr c (by simp)) _ x.fuel (by have := hc.fuel; omega)]
      dsimp only
      rw [badIf_ec, badIf_ec]
      dsimp only
      generalize ecIf _ _ = e
      exact ⟨e, by simp [enc8_append]; omega⟩

/-! ### The scheme -/

/-- A text that goes on as a scheme does. -/
def Goeson (w : List Nat) : Prop := ∃ v s, (∀ c ∈ v, Part c) ∧ w = v ++ 0x3A :: s

include ho in
theorem scheme_none (w : List Nat) : ∀ b, w <:+ x.input → ¬ Goeson w →
    Goes x ⟨.scheme, {}, b, w, false, false, false⟩ ⟨.noScheme, {}, [], x.input, false, false, false⟩ := by
  induction w with
  | nil =>
    intro b hr _
    refine goes_step fun ec => ⟨ec, ?_⟩
    simp only [step, Cfg.st]
    rw [at_rest hr, headOf, onScheme, if_neg (by decide), if_neg (by decide), if_pos ho]
    simp
  | cons c w ih =>
    intro b hr h
    have hcol : c ≠ 0x3A := fun e => h ⟨[], w, by simp, by rw [e]; rfl⟩
    by_cases hp : Part c
    · refine Goes.trans (d := ⟨.scheme, {}, b ++ [Verif.Spec.Infra.lower c], w, false, false, false⟩) ?_
        (ih _ ((List.suffix_cons c _).trans hr) ?_)
      · refine goes_step fun ec => ⟨ec, ?_⟩
        simp only [step, Cfg.st]
        rw [at_rest hr, onScheme, headOf, if_pos ((part_iff c).mpr hp), lower_eq c (part_small hp)]
        simp
        omega
      · rintro ⟨v, s, hv, rfl⟩
        refine h ⟨c :: v, s, ?_, rfl⟩
        intro d hd
        rcases List.mem_cons.mp hd with rfl | hd
        · exact hp
        · exact hv d hd
    · refine goes_step fun ec => ⟨ec, ?_⟩
      simp only [step, Cfg.st]
      rw [at_rest hr, onScheme, headOf, if_neg (fun h => hp ((part_iff c).mp h)), if_neg hcol, if_pos ho]
      simp

include ho in
/-- Without a scheme the parser starts again. -/
theorem start_none (h : ¬ HasScheme x.input) :
    Goes x ⟨.schemeStart, {}, [], x.input, false, false, false⟩ ⟨.noScheme, {}, [], x.input, false, false, false⟩ := by
  have hno : ∀ r, r = x.input → isAsciiAlpha (headOf r) = false → Goes x ⟨.schemeStart, {}, [], r, false, false, false⟩
      ⟨.noScheme, {}, [], r, false, false, false⟩ := by
    intro r hr ha
    refine goes_step fun ec => ⟨ec, ?_⟩
    simp only [step, Cfg.st]
    rw [at_rest (hr ▸ List.suffix_refl _), onSchemeStart, if_neg (by simp [ha]), if_pos ho]
  cases hi : x.input with
  | nil => exact hno [] hi.symm (by decide)
  | cons c w =>
    by_cases ha : isAsciiAlpha c = true
    · have hl := (alpha_iff c).mp ha
      have hr : (c :: w) <:+ x.input := hi ▸ List.suffix_refl _
      have := scheme_none ho w [Verif.Spec.Infra.lower c] ((List.suffix_cons c _).trans hr) (by
        rintro ⟨v, s, hv, rfl⟩
        exact h ⟨c :: v, s, ⟨c, v, rfl, hl, hv⟩, by rw [hi]; rfl⟩)
      rw [hi] at this
      refine Goes.trans ?_ this
      refine goes_step fun ec => ⟨ec, ?_⟩
      simp only [step, Cfg.st]
      rw [at_rest hr, onSchemeStart, headOf, if_pos ha, lower_eq c (part_small (Or.inl hl))]
      simp
      omega
    · exact hno (c :: w) hi.symm (by simpa [headOf] using ha)

theorem scheme_some (w b r : List Nat) (h : ∀ c ∈ w, Part c) (hr : (w ++ 0x3A :: r) <:+ x.input) :
    Goes x ⟨.scheme, {}, b, w ++ 0x3A :: r, false, false, false⟩
      ⟨.scheme, {}, b ++ w.map Verif.Spec.Infra.lower, 0x3A :: r, false, false, false⟩ := by
  induction w generalizing b with
  | nil => simpa using Goes.refl x _
  | cons c w ih =>
    have hw : (w ++ 0x3A :: r) <:+ x.input := (List.suffix_cons c _).trans hr
    have hp := h c (by simp)
    have := ih (b ++ [Verif.Spec.Infra.lower c]) (fun d hd => h d (by simp [hd])) hw
    rw [List.append_assoc, List.singleton_append] at this
    refine Goes.trans ?_ this
    refine goes_step fun ec => ⟨ec, ?_⟩
    simp only [step, Cfg.st, List.cons_append] at hr ⊢
    rw [at_rest hr, onScheme, headOf, if_pos ((part_iff c).mpr hp), lower_eq c (part_small hp)]
    simp
    omega

/-- With a scheme, up to the colon. -/
theorem start_some {w r : List Nat} (h : SchemeText w) (hr : (w ++ 0x3A :: r) <:+ x.input) :
    Goes x ⟨.schemeStart, {}, [], w ++ 0x3A :: r, false, false, false⟩
      ⟨.scheme, {}, w.map Verif.Spec.Infra.lower, 0x3A :: r, false, false, false⟩ := by
  obtain ⟨a, v, rfl, hl, hv⟩ := h
  refine Goes.trans ?_ (scheme_some v [Verif.Spec.Infra.lower a] r hv ((List.suffix_cons a _).trans hr))
  refine goes_step fun ec => ⟨ec, ?_⟩
  simp only [step, Cfg.st, List.cons_append] at hr ⊢
  rw [at_rest hr, onSchemeStart, headOf, if_pos ((alpha_iff a).mpr hl), lower_eq a (part_small (Or.inl hl))]
  simp
  omega

/-! ### Beside a base that is not a `file` URL -/

theorem slash_rel (u : Url) (c : Nat) : slashes u c = isSlash u.scheme c := rfl

theorem head_ne {a : Nat} {r : List Nat} {q f : Option (List Nat)} : headOf (a :: r ++ (queryText q ++ fragmentText f)) = a := rfl

include ho hc hn in
/-- A reference from the relative state on. -/
theorem relative_reads {b : Url} (hb : x.base = some b) (hcb : b.cannotBeBase = false) (hnf : b.scheme ≠ codes "file") (t : List Nat)
    (q f : Option (List Nat)) (hq : ∀ t, q = some t → ∀ c ∈ t, c ≠ 0x23) (p : List Nat) (hp : ∀ c ∈ p, c ≠ 0x3F ∧ c ≠ 0x23)
    (hr : (p ++ (queryText q ++ fragmentText f)) <:+ x.input) (hh : ¬ HasHost b.scheme (p ++ (queryText q ++ fragmentText f))) :
    Finishes x ⟨.relative, { scheme := t }, [], p ++ (queryText q ++ fragmentText f), false, false, false⟩
      { b with path := pathFrom b p, query := if p = [] ∧ q = none then b.query else q.map (enc8 (querySet b)), fragment := f.map (enc8 .fragment) } := by
  have glue0 : ∀ r, glue [] (pieces (slashes b) r) = pieces (slashes b) r := by
    intro r
    obtain ⟨q, qs, hq⟩ := pieces_cons (slashes b) r
    rw [hq]; rfl
  cases p with
  | nil =>
    rw [List.nil_append] at hr ⊢
    cases q with
    | some q =>
      rw [if_neg (by simp)]
      have e := query_tail ho hc hn { b with fragment := none } rfl f q [] (hq q rfl) ((List.suffix_cons _ _).trans hr)
      refine Goes.ends ?_ e
      refine goes_step fun ec => ⟨ec, ?_⟩
      simp only [step, Cfg.st, queryText, List.cons_append] at hr ⊢
      rw [at_rest hr, onRelative, hb, headOf]
      dsimp only
      rw [if_neg (by decide), if_neg (by simp), if_pos rfl]
      simp [hcb]
      omega
    | none =>
      rw [if_pos ⟨rfl, rfl⟩]
      rw [queryText, List.nil_append] at hr ⊢
      cases f with
      | some f =>
        have hf' : f <:+ x.input := (List.suffix_cons _ _).trans hr
        have e := fragment_reads hc b f [] (fun c h => hn c (hf'.mem h)) hf'
        refine Goes.ends ?_ e
        refine goes_step fun ec => ⟨ec, ?_⟩
        simp only [step, Cfg.st, fragmentText] at hr ⊢
        rw [at_rest hr, onRelative, hb, headOf]
        dsimp only
        rw [if_neg (by decide), if_neg (by simp), if_neg (by decide), if_pos rfl]
        simp [hcb]
        omega
      | none =>
        refine ends_step fun ec => ?_
        simp only [step, Cfg.st, fragmentText] at hr ⊢
        rw [at_rest hr, onRelative, hb, headOf]
        dsimp only
        rw [if_neg (by decide), if_neg (by simp), if_neg (by decide), if_neg (by decide), if_neg (by simp)]
        exact ⟨_, by simp [hcb, pathFrom], by simp, rfl⟩
  | cons c p =>
    rw [if_neg (by simp), pathFrom]
    have hc0 := hn c (hr.mem (by simp))
    obtain ⟨hc1, hc2⟩ := hp c (by simp)
    have hr1 : (p ++ (queryText q ++ fragmentText f)) <:+ x.input := (List.suffix_cons _ _).trans hr
    by_cases hs : isSlash b.scheme c = true
    · rw [if_pos hs, rootOf, if_neg (fun h => hnf h.1)]
      have e := path_tail ho hc hn { b with query := none, fragment := none } rfl rfl q f hq p [] [] (fun d hd => hp d (by simp [hd]))
        (by simp) hr1
      rw [show glue [] (pieces (slashes { b with query := none, fragment := none }) p) = pieces (slashes b) p from glue0 p] at e
      refine Goes.ends ?_ e
      refine Goes.trans (d := ⟨.relativeSlash, { scheme := b.scheme }, [], p ++ (queryText q ++ fragmentText f), false, false, false⟩) ?_ ?_
      · refine goes_step fun ec => ?_
        simp only [step, Cfg.st, List.cons_append] at hr ⊢
        rw [at_rest hr, onRelative, hb, headOf]
        dsimp only
        by_cases hsl : c = 0x2F
        · rw [if_pos hsl]
          exact ⟨ec, by simp; omega⟩
        · rw [if_neg hsl, if_pos]
          · exact ⟨some .validationError, by simp [St.bad]; omega⟩
          · rw [isSlash, decide_eq_true_eq] at hs
            exact ⟨(special_iff _).mpr (hs.resolve_left hsl).1, (hs.resolve_left hsl).2⟩
      · have hnh : isSlash b.scheme (headOf (p ++ (queryText q ++ fragmentText f))) = false := by
          rw [Bool.eq_false_iff]
          intro h
          cases hd : p ++ (queryText q ++ fragmentText f) with
          | nil => rw [hd] at h; simp [isSlash, headOf] at h
          | cons d s => rw [hd] at h; exact hh ⟨c, d, s, by rw [← hd]; rfl, hs, h⟩
        rw [isSlash, decide_eq_false_iff_not, not_or, not_and] at hnh
        refine goes_step fun ec => ⟨ec, ?_⟩
        simp only [step, Cfg.st]
        rw [at_rest hr1, onRelativeSlash, if_neg, if_neg hnh.1, hb]
        · simp [enc8, hcb]
        · rintro ⟨h1, h2 | h2⟩
          · exact hnh.1 h2
          · exact hnh.2 ((special_iff _).mp h1) h2
    · rw [if_neg hs, besideOf, if_neg (fun h => hnf h.1), parent, if_neg (by simp [hnf])]
      have e := path_tail ho hc hn { b with query := none, fragment := none } rfl rfl q f hq (c :: p) [] b.path.dropLast hp (by simp) hr
      rw [show glue [] (pieces (slashes { b with query := none, fragment := none }) (c :: p)) = pieces (slashes b) (c :: p) from glue0 _] at e
      refine Goes.ends ?_ e
      rw [isSlash, decide_eq_true_eq, not_or, not_and] at hs
      refine goes_step fun ec => ⟨ec, ?_⟩
      simp only [step, Cfg.st, List.cons_append] at hr ⊢
      rw [at_rest hr, onRelative, hb, headOf]
      dsimp only
      rw [if_neg hs.1, if_neg (fun h => hs.2 ((special_iff _).mp h.1) h.2), if_neg hc1, if_neg hc2, if_pos hc0]
      simp [enc8, hcb]

/-! ### Beside a `file` URL -/

theorem drive_first (p t : List Nat) (ht : t = [] ∨ ∃ s, t = 0x3F :: s ∨ t = 0x23 :: s) (hp : ∀ c ∈ p, c ≠ 0x3F ∧ c ≠ 0x23) :
    startsWithWindowsDriveLetter (p ++ t) = true ↔ DriveFirst p := by
  have hcodes : codes ":|" = [0x3A, 0x7C] := by decide
  have hsl : codes "/\\" = [0x2F, 0x5C] := by decide
  have no : ∀ a b, b ∈ [0x3F, 0x23] → isWindowsDriveLetter [a, b] = false := by
    intro a b hb
    simp only [List.mem_cons, List.not_mem_nil, or_false] at hb
    rcases hb with rfl | rfl <;> simp [isWindowsDriveLetter]
  unfold DriveFirst
  rw [← letter_iff]
  match p, hp with
  | [], _ =>
    rcases ht with rfl | ⟨s, rfl | rfl⟩
    · simp [startsWithWindowsDriveLetter, isWindowsDriveLetter]
    all_goals
      cases s <;> simp [startsWithWindowsDriveLetter, isWindowsDriveLetter, isAsciiAlpha, isAsciiUpperAlpha, isAsciiLowerAlpha]
  | [a], _ =>
    rcases ht with rfl | ⟨s, rfl | rfl⟩
    · simp [startsWithWindowsDriveLetter, isWindowsDriveLetter]
    all_goals simp [startsWithWindowsDriveLetter, isWindowsDriveLetter]
  | [a, b], _ =>
    rcases ht with rfl | ⟨s, rfl | rfl⟩ <;> simp [startsWithWindowsDriveLetter]
  | a :: b :: c :: p, hp =>
    obtain ⟨h1, h2⟩ := hp c (by simp)
    rw [hsl]
    simp [startsWithWindowsDriveLetter, h1, h2]

theorem tail_shape (q f : Option (List Nat)) : queryText q ++ fragmentText f = [] ∨ ∃ s, queryText q ++ fragmentText f = 0x3F :: s ∨
    queryText q ++ fragmentText f = 0x23 :: s := by
  cases q with
  | some q => exact Or.inr ⟨_, Or.inl rfl⟩
  | none =>
    cases f with
    | some f => exact Or.inr ⟨_, Or.inr rfl⟩
    | none => exact Or.inl rfl

theorem rest_at {s : St} {r : List Nat} (hr : r <:+ x.input) (hp : s.pos = (x.input.length : Int) - r.length) : x.rest s = r := by
  obtain ⟨a, ha⟩ := hr
  unfold Ctx.rest
  have : s.pos.toNat = a.length := by rw [hp, ← ha]; simp
  rw [this, ← ha, List.drop_left]

theorem drive_bool {p : List Nat} {q f : Option (List Nat)} (hp : ∀ c ∈ p, c ≠ 0x3F ∧ c ≠ 0x23) :
    startsWithWindowsDriveLetter (p ++ (queryText q ++ fragmentText f)) = decide (DriveFirst p) := by
  rw [Bool.eq_iff_iff, decide_eq_true_eq]
  exact drive_first p _ (tail_shape q f) hp

include ho hc hn in
/-- A reference from the file state on. -/
theorem file_reads {b : Url} (hb : x.base = some b) (hcb : b.cannotBeBase = false) (hf : b.scheme = codes "file")
    (h3 : b.username = [] ∧ b.password = [] ∧ b.port = none) (t : List Nat) (q f : Option (List Nat)) (hq : ∀ t, q = some t → ∀ c ∈ t, c ≠ 0x23) (p : List Nat) (hp : ∀ c ∈ p, c ≠ 0x3F ∧ c ≠ 0x23)
    (hr : (p ++ (queryText q ++ fragmentText f)) <:+ x.input) (hh : ¬ HasHost b.scheme (p ++ (queryText q ++ fragmentText f))) :
    Finishes x ⟨.file, { scheme := t }, [], p ++ (queryText q ++ fragmentText f), false, false, false⟩
      { b with path := pathFrom b p, query := if p = [] ∧ q = none then b.query else q.map (enc8 (querySet b)), fragment := f.map (enc8 .fragment) } := by
  have glue0 : ∀ r, glue [] (pieces (slashes b) r) = pieces (slashes b) r := by
    intro r
    obtain ⟨q, qs, hq⟩ := pieces_cons (slashes b) r
    rw [hq]; rfl
  have hsp : Special b.scheme := hf ▸ file_special
  have hlit : lit "file" = b.scheme := hf.symm
  obtain ⟨h31, h32, h33⟩ := h3
  cases p with
  | nil =>
    rw [List.nil_append] at hr ⊢
    cases q with
    | some q =>
      rw [if_neg (by simp)]
      have e := query_tail ho hc hn { b with fragment := none } rfl f q [] (hq q rfl) ((List.suffix_cons _ _).trans hr)
      refine Goes.ends ?_ e
      refine goes_step fun ec => ⟨ec, ?_⟩
      simp only [step, Cfg.st, queryText, List.cons_append] at hr ⊢
      rw [at_rest hr, onFile, hb, headOf]
      dsimp only
      rw [if_neg (by decide), if_pos hlit.symm, if_pos rfl]
      simp [hcb, hlit, h31, h32, h33]
      omega
    | none =>
      rw [if_pos ⟨rfl, rfl⟩]
      rw [queryText, List.nil_append] at hr ⊢
      cases f with
      | some f =>
        have hf' : f <:+ x.input := (List.suffix_cons _ _).trans hr
        have e := fragment_reads hc b f [] (fun c h => hn c (hf'.mem h)) hf'
        refine Goes.ends ?_ e
        refine goes_step fun ec => ⟨ec, ?_⟩
        simp only [step, Cfg.st, fragmentText] at hr ⊢
        rw [at_rest hr, onFile, hb, headOf]
        dsimp only
        rw [if_neg (by decide), if_pos hlit.symm, if_neg (by decide), if_pos rfl]
        simp [hcb, hlit, h31, h32, h33]
        omega
      | none =>
        refine ends_step fun ec => ?_
        simp only [step, Cfg.st, fragmentText] at hr ⊢
        rw [at_rest hr, onFile, hb, headOf]
        dsimp only
        rw [if_neg (by decide), if_pos hlit.symm, if_neg (by decide), if_neg (by decide), if_neg (by simp)]
        exact ⟨_, by simp [hcb, pathFrom, hlit, h31, h32, h33], by simp, rfl⟩
  | cons c p =>
    rw [if_neg (by simp), pathFrom]
    have hc0 := hn c (hr.mem (by simp))
    obtain ⟨hc1, hc2⟩ := hp c (by simp)
    have hp' : ∀ d ∈ p, d ≠ 0x3F ∧ d ≠ 0x23 := fun d hd => hp d (by simp [hd])
    have hr1 : (p ++ (queryText q ++ fragmentText f)) <:+ x.input := (List.suffix_cons _ _).trans hr
    by_cases hs : isSlash b.scheme c = true
    · rw [if_pos hs]
      have e := path_tail ho hc hn { b with query := none, fragment := none } rfl rfl q f hq p [] (rootOf b p) hp' (by simp) hr1
      rw [show glue [] (pieces (slashes { b with query := none, fragment := none }) p) = pieces (slashes b) p from glue0 p] at e
      refine Goes.ends ?_ e
      have hs' : c = 0x2F ∨ c = 0x5C := by
        rw [isSlash, decide_eq_true_eq] at hs
        exact hs.imp id And.right
      refine Goes.trans (d := ⟨.fileSlash, { scheme := b.scheme, host := some .empty }, [], p ++ (queryText q ++ fragmentText f), false, false, false⟩) ?_ ?_
      · refine goes_step fun ec => ?_
        simp only [step, Cfg.st, List.cons_append] at hr ⊢
        rw [at_rest hr, onFile, hb, headOf]
        dsimp only
        rw [if_pos hs', badIf_ec]
        generalize ecIf _ _ = e
        exact ⟨e, by simp [hlit]; omega⟩
      · have hnh : isSlash b.scheme (headOf (p ++ (queryText q ++ fragmentText f))) = false := by
          rw [Bool.eq_false_iff]
          intro h
          cases hd : p ++ (queryText q ++ fragmentText f) with
          | nil => rw [hd] at h; simp [isSlash, headOf] at h
          | cons d s => rw [hd] at h; exact hh ⟨c, d, s, by rw [← hd]; rfl, hs, h⟩
        rw [isSlash, decide_eq_false_iff_not, not_or, not_and] at hnh
        refine goes_step fun ec => ⟨ec, ?_⟩
        simp only [step, Cfg.st]
        rw [at_rest hr1, onFileSlash, if_neg (by rintro (h | h); exacts [hnh.1 h, hnh.2 hsp h]), hb]
        dsimp only
        rw [if_pos hlit.symm, rest_at hr1 rfl, drive_bool hp']
        have hn2 := normal_iff (b.path.headD [])
        unfold rootOf
        by_cases hd : DriveFirst p
        · simp [hd, enc8, hcb, h31, h32, h33]
        · by_cases h0 : b.path = []
          · simp [hd, h0, enc8, hcb, h31, h32, h33]
          · by_cases hD : Drive (codes ":") (b.path.headD [])
            · rw [if_pos ⟨by simp [hd], h0, hn2.mpr hD⟩, if_pos ⟨hf, hd, h0, hD⟩]
              simp [enc8, hcb, h31, h32, h33]
            · rw [if_neg (fun h => hD (hn2.mp h.2.2)), if_neg (fun h => hD h.2.2.2)]
              simp [enc8, hcb, h31, h32, h33]
    · rw [if_neg hs]
      have e := path_tail ho hc hn { b with query := none, fragment := none } rfl rfl q f hq (c :: p) [] (besideOf b (c :: p)) hp (by simp) hr
      rw [show glue [] (pieces (slashes { b with query := none, fragment := none }) (c :: p)) = pieces (slashes b) (c :: p) from glue0 _] at e
      refine Goes.ends ?_ e
      rw [isSlash, decide_eq_true_eq, not_or, not_and] at hs
      refine goes_step fun ec => ?_
      simp only [step, Cfg.st]
      rw [at_rest hr, onFile, hb, head_ne]
      dsimp only
      rw [if_neg (by rintro (h | h); exacts [hs.1 h, hs.2 hsp h]), if_pos hlit.symm, if_neg hc1, if_neg hc2, if_pos hc0, rest_at hr rfl,
        drive_bool hp]
      unfold besideOf
      by_cases hd : DriveFirst (c :: p)
      · rw [if_neg (by simp [hd]), if_pos ⟨hf, hd⟩]
        exact ⟨some .validationError, by simp [St.bad, enc8, hlit, hcb, h31, h32, h33]⟩
      · rw [if_pos (by simp [hd]), if_neg (fun h => hd h.2), shorten_eq]
        exact ⟨ec, by simp [enc8, hlit, hcb, h31, h32, h33, isFile]⟩

/-! ### From the beginning -/

theorem noScheme_relative {b : Url} (hb : x.base = some b) (hcb : b.cannotBeBase = false) (hnf : b.scheme ≠ codes "file") (r : List Nat) :
    Goes x ⟨.noScheme, {}, [], r, false, false, false⟩ ⟨.relative, {}, [], r, false, false, false⟩ := by
  refine goes_step fun ec => ⟨ec, ?_⟩
  simp only [step, Cfg.st]
  rw [onNoScheme, hb]
  dsimp only
  rw [if_neg (by simp [hcb]), if_neg (by simp [hcb]), if_pos (show b.scheme ≠ lit "file" from hnf)]

theorem noScheme_file {b : Url} (hb : x.base = some b) (hcb : b.cannotBeBase = false) (hnf : b.scheme = codes "file") (r : List Nat) :
    Goes x ⟨.noScheme, {}, [], r, false, false, false⟩ ⟨.file, {}, [], r, false, false, false⟩ := by
  refine goes_step fun ec => ⟨ec, ?_⟩
  simp only [step, Cfg.st]
  rw [onNoScheme, hb]
  dsimp only
  rw [if_neg (by simp [hcb]), if_neg (by simp [hcb]), if_neg (not_not.mpr (show b.scheme = lit "file" from hnf))]

include ho in
/-- The scheme of the base again. -/
theorem colon_same {b : Url} (hb : x.base = some b) (hs : Special b.scheme) (hnf : b.scheme ≠ codes "file") {r : List Nat} (hr : (0x3A :: r) <:+ x.input) :
    Goes x ⟨.scheme, {}, b.scheme, 0x3A :: r, false, false, false⟩
      ⟨.specialRelativeOrAuthority, { scheme := b.scheme }, [], r, false, false, false⟩ := by
  refine goes_step fun ec => ⟨ec, ?_⟩
  have hsp : isSpecialScheme b.scheme = true := (special_iff _).mpr hs
  simp only [step, Cfg.st]
  rw [at_rest hr, onScheme, headOf, if_neg (by decide), if_pos rfl, if_neg (by simp [ho]), afterScheme]
  dsimp only
  rw [if_neg (show ¬ b.scheme = lit "file" from hnf), if_pos ⟨hsp, by simp [hb]⟩]
  simp
  omega

theorem special_relative {u : Url} {r : List Nat} (hr : r <:+ x.input) (h : ∀ s, r ≠ 0x2F :: 0x2F :: s) :
    Goes x ⟨.specialRelativeOrAuthority, u, [], r, false, false, false⟩ ⟨.relative, u, [], r, false, false, false⟩ := by
  refine goes_step fun ec => ⟨some .validationError, ?_⟩
  simp only [step, Cfg.st]
  rw [onSpecialRelativeOrAuthority, if_neg]
  · rfl
  · rintro ⟨h1, h2, h3⟩
    rw [at_rest hr] at h1
    cases r with
    | nil => cases h1
    | cons c r =>
      cases h1
      rw [at_next hr] at h3
      cases r with
      | nil => cases h3
      | cons d r => cases h3; exact h r rfl

include ho hc hn in
theorem target_reads {b : Url} (hb : x.base = some b) (hv : ValidUrl b) (hcb : b.cannotBeBase = false) {r : List Nat} (h : Refers b x.input r)
    (hh : ¬ HasHost b.scheme r) :
    Finishes x ⟨.schemeStart, {}, [], x.input, false, false, false⟩ (target b r) := by
  obtain ⟨f1, f2⟩ := cut_text 0x23 r
  obtain ⟨q1, q2⟩ := cut_text 0x3F (cut 0x23 r).1
  rw [fragment_text] at f2
  rw [query_text] at q2
  unfold target
  dsimp only
  generalize cut 0x23 r = F at *
  generalize cut 0x3F F.1 = Q at *
  obtain ⟨F1, f⟩ := F
  obtain ⟨p, q⟩ := Q
  dsimp only at *
  have e : r = p ++ (queryText q ++ fragmentText f) := by rw [← List.append_assoc, ← q2]; exact f2
  have hp : ∀ c ∈ p, c ≠ 0x3F ∧ c ≠ 0x23 := fun c hm => ⟨q1 c hm, f1 c (by rw [q2]; simp [hm])⟩
  have hq : ∀ t, q = some t → ∀ c ∈ t, c ≠ 0x23 := by
    intro t ht c hm
    exact f1 c (by rw [q2, ht]; simp [queryText, hm])
  by_cases hf : b.scheme = codes "file"
  · have h3 := hv.file hf
    have main : ∀ t, (p ++ (queryText q ++ fragmentText f)) <:+ x.input → Finishes x ⟨.file, { scheme := t }, [], p ++ (queryText q ++ fragmentText f), false, false, false⟩ _ :=
      fun t hr => file_reads ho hc hn hb hcb hf h3 t q f hq p hp hr (by rw [← e]; exact hh)
    rw [← e] at main
    rcases h with ⟨hi, hns⟩ | ⟨w, hw, hi, hlow, _⟩
    · have hr : r <:+ x.input := hi ▸ List.suffix_refl _
      exact ((start_none ho (by rw [hi]; exact hns)).trans (noScheme_file hb hcb hf _)).ends (hi ▸ main [] hr)
    · have hr0 : (w ++ 0x3A :: r) <:+ x.input := hi ▸ List.suffix_refl _
      have hr1 : (0x3A :: r) <:+ x.input := (List.suffix_append _ _).trans hr0
      have g := start_some hw hr0
      rw [hlow, hf, ← hi] at g
      exact (g.trans (colon_file ho hr1)).ends (main _ ((List.suffix_cons _ _).trans hr1))
  · have main : ∀ t, (p ++ (queryText q ++ fragmentText f)) <:+ x.input → Finishes x ⟨.relative, { scheme := t }, [], p ++ (queryText q ++ fragmentText f), false, false, false⟩ _ :=
      fun t hr => relative_reads ho hc hn hb hcb hf t q f hq p hp hr (by rw [← e]; exact hh)
    rw [← e] at main
    rcases h with ⟨hi, hns⟩ | ⟨w, hw, hi, hlow, hsp⟩
    · have hr : r <:+ x.input := hi ▸ List.suffix_refl _
      exact ((start_none ho (by rw [hi]; exact hns)).trans (noScheme_relative hb hcb hf _)).ends (hi ▸ main [] hr)
    · have hr0 : (w ++ 0x3A :: r) <:+ x.input := hi ▸ List.suffix_refl _
      have hr1 : (0x3A :: r) <:+ x.input := (List.suffix_append _ _).trans hr0
      have hr2 : r <:+ x.input := (List.suffix_cons _ _).trans hr1
      have g := start_some hw hr0
      rw [hlow, ← hi] at g
      refine ((g.trans (colon_same ho hb hsp hf hr1)).trans (special_relative hr2 ?_)).ends (main _ hr2)
      intro s hs
      exact hh ⟨0x2F, 0x2F, s, hs, by simp [isSlash], by simp [isSlash]⟩

include ho in
/-- A base that cannot be one. -/
theorem cannot_fragment (hc : CInv x) (hn : ∀ c ∈ x.input, c ≠ 0x0A) {b : Url} (hb : x.base = some b) (hv : ValidUrl b) (hcb : b.cannotBeBase = true)
    {f : List Nat} (hi : x.input = 0x23 :: f) :
    Finishes x ⟨.schemeStart, {}, [], x.input, false, false, false⟩ { b with fragment := some (enc8 .fragment f) } := by
  have hns : ¬ HasScheme x.input := by
    rintro ⟨w, s, ⟨a, v, rfl, hl, _⟩, e⟩
    rw [hi] at e
    injection e with e _
    subst e
    exact absurd hl (by unfold Lower; decide)
  have hr : (0x23 :: f) <:+ x.input := hi ▸ List.suffix_refl _
  have hf' : f <:+ x.input := (List.suffix_cons _ _).trans hr
  have e := fragment_reads hc b f [] (fun c h => hn c (hf'.mem h)) hf'
  rw [List.nil_append] at e
  refine (start_none ho hns).ends (Goes.ends ?_ e)
  rw [hi]
  have hh := (hv.cannot hcb).1
  have hcr : b.username = [] ∧ b.password = [] ∧ b.port = none := by
    by_contra hcon
    have : b.username ≠ [] ∨ b.password ≠ [] ∨ b.port ≠ none := by tauto
    obtain ⟨k, hk, _⟩ := hv.authority this
    rw [hh] at hk
    cases hk
  refine goes_step fun ec => ⟨ec, ?_⟩
  simp only [step, Cfg.st]
  rw [at_rest hr, onNoScheme, hb, headOf]
  dsimp only
  rw [if_neg (by simp), if_pos ⟨hcb, rfl⟩]
  simp [hh, hcr, hcb]
  omega

include ho in
/-- Nothing to refer to. -/
theorem refers_nothing (hns : ¬ HasScheme x.input) (h : ∀ b, x.base = some b → b.cannotBeBase = true ∧ ∀ f, x.input ≠ 0x23 :: f) :
    ∀ ec, ∃ (s' : St) (k : Nat), ∀ n, run x (n + k) ((⟨.schemeStart, {}, [], x.input, false, false, false⟩ : Cfg).st x ec) = .stop (false, s') := by
  intro ec
  obtain ⟨ec1, k, hk⟩ := start_none ho hns ec
  have : ∃ s', step x ((⟨.noScheme, {}, [], x.input, false, false, false⟩ : Cfg).st x ec1) = .failure s' := by
    simp only [step, Cfg.st]
    rw [at_rest (List.suffix_refl _), onNoScheme]
    cases hb : x.base with
    | none => exact ⟨_, rfl⟩
    | some b =>
      obtain ⟨h1, h2⟩ := h b hb
      dsimp only
      rw [if_pos]
      · exact ⟨_, rfl⟩
      · refine ⟨h1, fun h => ?_⟩
        cases hi : x.input with
        | nil => rw [hi] at h; cases h
        | cons c f => rw [hi] at h; cases h; exact h2 f hi
  obtain ⟨s', hs'⟩ := this
  exact ⟨s', 1 + k, fun n => by rw [← Nat.add_assoc, hk, run, hs']⟩

end
end Verif.Proof.UrlResolve
