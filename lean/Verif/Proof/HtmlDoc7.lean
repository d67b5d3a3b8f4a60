import Verif.Proof.HtmlDoc6
/- Trees in order are read as they are. -/
namespace Verif.Proof.HtmlDoc
open Verif.Model.HtmlTree
open Verif.Spec.HtmlTree (data attr)
open Verif.Spec.HtmlAtom (codes)
open Verif.Spec.HtmlSerial (Attr htmlNs voidNames rawNames Dom.data)
open Verif.Spec.HtmlRoundTrip (tokens tokensAll Plain PlainAll PlainAttr)
open Verif.Spec.HtmlDoc
variable {tbl : List Nat → Bool} {s : S} {c : Ctx} {name : List Nat} {at' : List At} {attrs : List Attr}

/-- The attributes as they arrive. -/
def given (l : List Attr) : List At := slotted [] (l.map fun a => (a.name, a.val))

theorem attrs_back : ∀ {l : List Attr}, (∀ a ∈ l, PlainAttr a ∧ a.pre = []) → (given l).map attr = l
  | [], _ => rfl
  | ⟨ns, pre, n, v⟩ :: l, h => by
    obtain ⟨⟨h1, -⟩, h2⟩ := h ⟨ns, pre, n, v⟩ (by simp)
    obtain rfl : ns = [] := h1
    obtain rfl : pre = [] := h2
    have := attrs_back (l := l) fun a ha => h a (by simp [ha])
    show attr ⟨.none, [], n, v⟩ :: (given l).map attr = _
    rw [this]; rfl

theorem elem_data (ha : Attrs attrs) : data (.elem .html (Tag.ofName name) (given attrs)) = .element htmlNs [] name attrs := by
  show Spec.HtmlSerial.Data.element htmlNs [] (Tag.ofName name).name ((given attrs).map attr) = _
  rw [ofName_name, attrs_back ha.1]

theorem step_start (hs : s.slots = []) {s1 : S} (h : emit tbl (.start (Tag.ofName name) (given attrs) false) s = .ok s1)
    (hsw : s1.switch = none) : Step tbl s (.startTag name (attrs.map fun a => (a.name, a.val)) false) s1 := by
  refine ⟨?_, hsw⟩
  unfold convert
  rw [hs]; exact h

theorem new_noText {d d' : Dom} {n : Nat} {k : Kind} (h : New d n k d') : NoText d' d.length := by
  intro x hx
  simp [kidsOf, h.new] at hx

theorem element_run (hF : Fit c s) (hO : Opens tbl c s name (given attrs)) (ha : Attrs attrs) (hv : name ∉ voidNames) {ks : List Tree}
    (hk : ∀ s1, Fit (inside c name) s1 → NoText s1.dom (top s1) → ∃ s2, Run tbl s1 (tokensAll ks) s2 ∧ Frame s1 s2 ks) :
    ∃ s', Run tbl s (tokens (.mk (.element htmlNs [] name attrs) ks)) s' ∧ Frame s s' [.mk (.element htmlNs [] name attrs) ks] := by
  obtain ⟨s1, h1, hfit, hnew, htop, hend⟩ := hO
  obtain ⟨s2, h2, hf2⟩ := hk s1 hfit (by rw [htop]; exact new_noText hnew)
  obtain ⟨s3, h3, hr, hd⟩ := hend s2 hf2.rest
  refine ⟨s3, ?_, ⟨hr, ?_⟩⟩
  · unfold tokens
    rw [if_neg hv]
    exact .cons (step_start hF.slots h1 hfit.still.switch) (h2.append (.one ⟨h3, hr.switch.trans hF.still.switch⟩))
  · have hg := hf2.dom
    rw [htop] at hg
    rw [hd, ← elem_data ha]
    exact grown_node hnew.lt hnew.len hnew.old hnew.kids hnew.new hg

/-- Parts of tables have no `p` or `nobr` in scope. -/
def Good (c : Ctx) : Prop := c.at' ≠ .flow → c.inP = false ∧ c.inNobr = false

theorem good_inside : Good (inside c name) := by
  unfold inside
  split
  · exact fun _ => ⟨rfl, rfl⟩
  split
  · exact fun _ => ⟨rfl, rfl⟩
  split
  · exact fun _ => ⟨rfl, rfl⟩
  split
  · exact fun _ => ⟨rfl, rfl⟩
  split
  · exact fun _ => ⟨rfl, rfl⟩
  split
  · exact fun _ => ⟨rfl, rfl⟩
  · exact fun h => absurd rfl h

theorem opens_all (hF : Fit c s) (hg : Good c) (h : Allowed c name) : Opens tbl c s name at' := by
  unfold Allowed at h
  cases hc : c.at' <;> rw [hc] at h
  · rcases h with ⟨h1, h2⟩ | ⟨h1, h2, h3⟩ | h | ⟨rfl, h⟩ | ⟨rfl, h⟩ | h | ⟨rfl, h1, h2⟩ | ⟨h1, h2, h3⟩ | ⟨rfl, h1, h2⟩ | ⟨rfl, h⟩ | h
    · exact opens_block hF hc h1 h2
    · exact opens_heading hF hc h1 h2 h3
    · exact opens_format hF hc h
    · exact opens_a hF hc h
    · exact opens_nobr hF hc h
    · exact opens_scope hF hc h
    · exact opens_li hF hc h1 h2
    · exact opens_dd hF hc h1 h2 h3
    · exact opens_form hF hc h1 h2
    · exact opens_table hF hc h
    · exact opens_other hF hc h
  · obtain ⟨g1, g2⟩ := hg (by rw [hc]; simp)
    rcases h with rfl | rfl | h
    · exact opens_caption hF hc g1 g2
    · exact opens_group hF hc g1 g2
    · exact opens_section hF hc h g1 g2
  · exact h.elim
  · obtain ⟨g1, g2⟩ := hg (by rw [hc]; simp)
    obtain rfl : name = codes "tr" := h
    exact opens_tr hF hc g1 g2
  · obtain ⟨g1, g2⟩ := hg (by rw [hc]; simp)
    exact opens_cell hF hc h g1 g2

theorem allowed_cases (h : Allowed c name) : name ∈ blocks ++ Verif.Spec.HtmlDoc.headings ++ formatting ++ scopes ++ sections ++ cells ++
    (["a", "nobr", "li", "dd", "dt", "form", "table", "caption", "colgroup", "tr"] : List String).map codes ∨ name ∉ treated := by
  unfold Allowed at h
  cases hc : c.at' <;> rw [hc] at h
  · rcases h with ⟨h1, h2⟩ | ⟨h1, h2, h3⟩ | h | ⟨rfl, h⟩ | ⟨rfl, h⟩ | h | ⟨rfl, h1, h2⟩ | ⟨h1, h2, h3⟩ | ⟨rfl, h1, h2⟩ | ⟨rfl, h⟩ | h
    · left; simp only [List.mem_append]; tauto
    · left; simp only [List.mem_append]; tauto
    · left; simp only [List.mem_append]; tauto
    · left; decide +kernel
    · left; decide +kernel
    · left; simp only [List.mem_append]; tauto
    · left; decide +kernel
    · left
      rcases List.mem_cons.mp h1 with rfl | h1
      · decide +kernel
      · rw [List.mem_singleton.mp h1]; decide +kernel
    · left; decide +kernel
    · left; decide +kernel
    · exact .inr h
  · rcases h with rfl | rfl | h
    · left; decide +kernel
    · left; decide +kernel
    · left; simp only [List.mem_append]; tauto
  · exact h.elim
  · obtain rfl : name = codes "tr" := h
    left; decide +kernel
  · left; simp only [List.mem_append]; tauto

theorem allowed_plain (h : Allowed c name) : name ∉ voidNames ∧ name ∉ rawNames := by
  rcases allowed_cases h with h | h
  · revert name
    intro name _ h
    exact (by decide +kernel : ∀ n ∈ blocks ++ Verif.Spec.HtmlDoc.headings ++ formatting ++ scopes ++ sections ++ cells ++
      (["a", "nobr", "li", "dd", "dt", "form", "table", "caption", "colgroup", "tr"] : List String).map codes,
        n ∉ voidNames ∧ n ∉ rawNames) name h
  · exact ⟨fun hv => h ((by decide +kernel : ∀ n ∈ voidNames, n ∈ treated) name hv),
      fun hv => h ((by decide +kernel : ∀ n ∈ rawNames, n ∈ treated) name hv)⟩

theorem allowedVoid_plain (h : AllowedVoid c name) : name ∈ voidNames ∧ name ∉ rawNames := by
  have : name ∈ codes "col" :: voids := by
    unfold AllowedVoid at h
    cases hc : c.at' <;> rw [hc] at h
    · exact List.mem_cons_of_mem _ h.1
    · exact h.elim
    · rw [show name = codes "col" from h]; simp
    · exact h.elim
    · exact h.elim
  exact (by decide +kernel : ∀ n ∈ codes "col" :: voids, n ∈ voidNames ∧ n ∉ rawNames) name this

theorem voids_run (hF : Fit c s) (h : AllowedVoid c name) :
    ∃ s1, emit tbl (.start (Tag.ofName name) at' false) s = .ok s1 ∧ Rest s s1 ∧
      New s.dom (top s) (.elem .html (Tag.ofName name) at') s1.dom := by
  unfold AllowedVoid at h
  cases hc : c.at' <;> rw [hc] at h
  · exact void_run hF hc h.1 h.2
  · exact h.elim
  · obtain rfl : name = codes "col" := h
    exact col_run hF hc
  · exact h.elim
  · exact h.elim

mutual
theorem fits_run : ∀ (D : Tree) {c : Ctx} {s : S}, Fits c D → Good c → Fit c s → (isText D.data = true → NoText s.dom (top s)) →
    ∃ s', Run tbl s (tokens D) s' ∧ Frame s s' [D]
  | .mk (.element ns pre name attrs) ks, c, s, h, hg, hF, _ => by
    unfold Fits at h
    obtain ⟨rfl, rfl, hn, ha, h⟩ := h
    rcases h with ⟨h1, rfl⟩ | ⟨h1, h2⟩
    · obtain ⟨s1, a1, a2, a3⟩ := voids_run (tbl := tbl) (at' := given attrs) hF h1
      refine ⟨s1, ?_, a2, ?_⟩
      · unfold tokens
        rw [if_pos (allowedVoid_plain h1).1]
        exact .one (step_start hF.slots a1 (a2.switch.trans hF.still.switch))
      · rw [← elem_data ha]
        exact grown_new a3
    · exact element_run hF (opens_all hF hg h1) ha (allowed_plain h1).1 fun s1 f1 n1 =>
        fitsAll_run ks h2 good_inside f1 (fun _ => n1)
  | .mk (.text t) ks, c, s, h, hg, hF, ht => by
    unfold Fits at h
    obtain ⟨h1, h2, h3, h4, rfl⟩ := h
    unfold tokens
    exact text_run hF h1 h2 h3 (ht rfl)
  | .mk (.comment t) ks, c, s, h, hg, hF, _ => by
    unfold Fits at h
    obtain ⟨h1, rfl⟩ := h
    unfold tokens
    exact comment_run hF t
  | .mk (.doctype _) _, _, _, h, _, _, _ => by unfold Fits at h; exact h.elim
  | .mk (.pi _ _) _, _, _, h, _, _, _ => by unfold Fits at h; exact h.elim
  | .mk .other _, _, _, h, _, _, _ => by unfold Fits at h; exact h.elim

theorem fitsAll_run : ∀ (ks : List Tree) {c : Ctx} {s : S} {t : Bool}, FitsAll c t ks → Good c → Fit c s →
    (t = false → NoText s.dom (top s)) → ∃ s', Run tbl s (tokensAll ks) s' ∧ Frame s s' ks
  | [], c, s, t, h, hg, hF, ht => by
    unfold tokensAll
    obtain ⟨e, l, h1, h2, h3, h4⟩ := hF.top_lt
    exact ⟨s, .nil _, .refl _, grown_refl (by rw [h2]; exact h3)⟩
  | D :: r, c, s, t, h, hg, hF, ht => by
    unfold FitsAll at h
    obtain ⟨h1, h2, h3⟩ := h
    obtain ⟨s1, a1, a2⟩ := fits_run D h1 hg hF fun hd => ht (by
      cases t
      · rfl
      · exact absurd ⟨rfl, hd⟩ h2)
    obtain ⟨s2, b1, b2⟩ := fitsAll_run r h3 hg (hF.frame a2) fun hd => by
      have : top s1 = top s := by unfold top; rw [a2.rest.stack]
      rw [this]
      exact grown_noText (ks := []) a2.dom hd
    unfold tokensAll
    exact ⟨s2, a1.append b1, a2.trans b2⟩
end

mutual
theorem fits_plain : ∀ (D : Tree) {c : Ctx}, Fits c D → Plain D
  | .mk (.element ns pre name attrs) ks, c, h => by
    unfold Fits at h
    obtain ⟨rfl, rfl, hn, ha, h⟩ := h
    unfold Plain
    rcases h with ⟨h1, rfl⟩ | ⟨h1, h2⟩
    · exact ⟨rfl, hn, (allowedVoid_plain h1).2, fun a h => (ha.1 a h).1, ha.2, fun _ => rfl, by unfold PlainAll; trivial⟩
    · exact ⟨rfl, hn, (allowed_plain h1).2, fun a h => (ha.1 a h).1, ha.2, fun h => absurd h (allowed_plain h1).1, fitsAll_plain ks h2⟩
  | .mk (.text t) ks, c, h => by unfold Fits at h; unfold Plain; exact h.2.2.2.1
  | .mk (.comment t) ks, c, h => by unfold Fits at h; unfold Plain; exact h.1
  | .mk (.doctype _) _, _, h => by unfold Fits at h; exact h.elim
  | .mk (.pi _ _) _, _, h => by unfold Fits at h; exact h.elim
  | .mk .other _, _, h => by unfold Fits at h; exact h.elim

theorem fitsAll_plain : ∀ (ks : List Tree) {c : Ctx} {t : Bool}, FitsAll c t ks → PlainAll ks
  | [], _, _, _ => by unfold PlainAll; trivial
  | D :: r, _, _, h => by
    unfold FitsAll at h
    unfold PlainAll
    exact ⟨fits_plain D h.1, fitsAll_plain r h.2.2⟩
end

end Verif.Proof.HtmlDoc
