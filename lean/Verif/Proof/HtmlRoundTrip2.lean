import Verif.Proof.HtmlRoundTrip
import Verif.Proof.HtmlSerialLoop
/-
Paths of the standard's tokenizer over texts, attributes, tags, comments and document types.
-/
namespace Verif.Proof.HtmlRoundTrip
open Verif.Model.HtmlTok Verif.Spec.HtmlTokBridge Verif.Proof.HtmlTok Verif.Spec.HtmlRoundTrip
open Verif.Spec.HtmlTok (steps step start Refs C Env)
open Verif.Spec.HtmlAtom (codes)
open Verif.Spec.HtmlSerial (escape)
variable {σ : Type} {S : Sink σ} {refs : Refs}

set_option hygiene false in
/-- A step in a state in which nothing goes another way. -/
macro "fine" : tactic => `(tactic| (refine fine_of ?_ ?_ ?_ ?_ ?_ <;> simp [*]))

/-! ### Character references -/

/-- A reference in a text. -/
theorem ref_data (hK : Knows refs) (n : List Nat) (c : Nat)
    (hn : (n, c) ∈ [(codes "amp;", 0x26), (codes "nbsp;", 0xA0), (codes "quot;", 0x22), (codes "lt;", 0x3C), (codes "gt;", 0x3E)])
    (x : C σ) (l : List Nat) (he : x.ended = false) (hst : x.st = .data) (hr : x.rest = 0x26 :: (n ++ l)) :
    Path S refs x { x with st := .data, ret := .data, tmp := [c], rest := l, sink := S.emit x.sink (.char c) } := by
  have hlong := hK _ hn l
  have hfirst : ∃ a r, n = a :: r ∧ Spec.HtmlTok.isAlnum a = true ∧ n.getLast? = some 0x3B := by
    simp only [List.mem_cons, Prod.mk.injEq, List.not_mem_nil, or_false] at hn
    rcases hn with ⟨rfl, rfl⟩ | ⟨rfl, rfl⟩ | ⟨rfl, rfl⟩ | ⟨rfl, rfl⟩ | ⟨rfl, rfl⟩ <;> exact ⟨_, _, rfl, by decide, by decide⟩
  obtain ⟨a, r, h1, h2, h3⟩ := hfirst
  refine (Path.one (row_data_amp _ refs x he _ hst hr) (by fine)).trans ?_
  refine (Path.one (row_charRef (envOf S) refs { x with st := .charRef, ret := .data, rest := n ++ l } he a (r ++ l) rfl (by simp [h1]) h2) (by fine)).trans ?_
  refine Path.one ?_ (fine_named rfl ⟨n, by
    simp only [List.mem_cons, Prod.mk.injEq, List.not_mem_nil, or_false] at hn ⊢
    tauto, l, rfl⟩)
  unfold Spec.HtmlTok.step
  simp [he, Spec.HtmlTok.named, hlong, h3, Spec.HtmlTok.flushRef, Spec.HtmlTok.putc, Spec.HtmlTok.inAttr, Spec.HtmlTok.emit, envOf, erase]

/-- A reference in an attribute value. -/
theorem ref_value (hK : Knows refs) (n : List Nat) (c : Nat)
    (hn : (n, c) ∈ [(codes "amp;", 0x26), (codes "nbsp;", 0xA0), (codes "quot;", 0x22), (codes "lt;", 0x3C), (codes "gt;", 0x3E)])
    (x : C σ) (l : List Nat) (k v : List Nat) (a) (he : x.ended = false) (hst : x.st = .attrValueDq) (hr : x.rest = 0x26 :: (n ++ l))
    (ha : x.tag.attrs = (k, v) :: a) :
    Path S refs x { x with st := .attrValueDq, ret := .attrValueDq, tmp := [c], rest := l, tag := { x.tag with attrs := (k, v ++ [c]) :: a } } := by
  have hlong := hK _ hn l
  have hfirst : ∃ a r, n = a :: r ∧ Spec.HtmlTok.isAlnum a = true ∧ n.getLast? = some 0x3B := by
    simp only [List.mem_cons, Prod.mk.injEq, List.not_mem_nil, or_false] at hn
    rcases hn with ⟨rfl, rfl⟩ | ⟨rfl, rfl⟩ | ⟨rfl, rfl⟩ | ⟨rfl, rfl⟩ | ⟨rfl, rfl⟩ <;> exact ⟨_, _, rfl, by decide, by decide⟩
  obtain ⟨b, r, h1, h2, h3⟩ := hfirst
  refine (Path.one (row_value_amp _ refs x he _ hst hr) (by fine)).trans ?_
  refine (Path.one (row_charRef (envOf S) refs { x with st := .charRef, ret := .attrValueDq, rest := n ++ l } he b (r ++ l) rfl (by simp [h1]) h2) (by fine)).trans ?_
  refine Path.one ?_ (fine_named rfl ⟨n, by
    simp only [List.mem_cons, Prod.mk.injEq, List.not_mem_nil, or_false] at hn ⊢
    tauto, l, rfl⟩)
  unfold Spec.HtmlTok.step
  simp [he, Spec.HtmlTok.named, hlong, h3, Spec.HtmlTok.flushRef, Spec.HtmlTok.putc, Spec.HtmlTok.inAttr, ha]

/-! ### Texts -/

theorem escape_cons (attr : Bool) (c : Nat) (s : List Nat) : escape attr (c :: s) = escape attr [c] ++ escape attr s := by
  simp [escape]

/-- At the beginning of a token. -/
structure AtData (rest : List Nat) (s : σ) (x : C σ) : Prop where
  st : x.st = .data
  rest : x.rest = rest
  sink : x.sink = s
  ended : x.ended = false

theorem text_path (hK : Knows refs) (s l : List Nat) : ∀ (z : σ) (x : C σ), AtData (escape false s ++ l) z x →
    ∃ y, Path S refs x y ∧ AtData l ((s.map Tok.char).foldl S.emit z) y := by
  induction s with
  | nil => intro z x h; exact ⟨x, .refl _ _ _, h⟩
  | cons c s ih =>
    intro z x h
    obtain ⟨hst, hr, hs, he⟩ := h
    rw [escape_cons, List.append_assoc] at hr
    suffices h : ∃ y, Path S refs x y ∧ AtData (escape false s ++ l) (S.emit z (.char c)) y by
      obtain ⟨y, hp, hy⟩ := h
      obtain ⟨y', hp', hy'⟩ := ih _ _ hy
      exact ⟨y', hp.trans hp', hy'⟩
    by_cases h1 : c = 0x26
    · subst h1
      exact ⟨_, ref_data hK (codes "amp;") 0x26 (by simp) x _ he hst hr, rfl, rfl, by rw [← hs], he⟩
    by_cases h2 : c = 0xA0
    · subst h2
      exact ⟨_, ref_data hK (codes "nbsp;") 0xA0 (by simp) x _ he hst hr, rfl, rfl, by rw [← hs], he⟩
    by_cases h3 : c = 0x3C
    · subst h3
      exact ⟨_, ref_data hK (codes "lt;") 0x3C (by simp) x _ he hst hr, rfl, rfl, by rw [← hs], he⟩
    by_cases h4 : c = 0x3E
    · subst h4
      exact ⟨_, ref_data hK (codes "gt;") 0x3E (by simp) x _ he hst hr, rfl, rfl, by rw [← hs], he⟩
    have : escape false [c] = [c] := by simp [escape, h1, h2, h3, h4]
    rw [this] at hr
    exact ⟨_, Path.one (row_data _ refs x he c _ hst hr h1 h3) (by fine), hst, rfl, by rw [← hs]; rfl, he⟩

/-! ### Names -/

theorem name_path (w l : List Nat) (hw : ∀ c ∈ w, NameChar c) : ∀ x : C σ, x.ended = false → x.st = .tagName → x.rest = w ++ l →
    Path S refs x { x with rest := l, tag := { x.tag with name := x.tag.name ++ w } } := by
  induction w with
  | nil =>
    intro x he hst hr
    have : ({ x with rest := l, tag := { x.tag with name := x.tag.name ++ [] } } : C σ) = x := by
      rw [List.append_nil]; simp only [List.nil_append] at hr; rw [← hr]
    rw [this]; exact .refl _ _ _
  | cons c w ih =>
    intro x he hst hr
    refine (Path.one (row_name _ refs x he c _ hst hr (hw c (by simp))) (by fine)).trans ?_
    have := ih (fun d hd => hw d (by simp [hd])) { x with rest := w ++ l, tag := { x.tag with name := x.tag.name ++ [c] } } he hst rfl
    simpa using this

theorem attr_name_path (w l v : List Nat) (a) (hw : ∀ c ∈ w, NameChar c ∧ c ≠ 0x3D) : ∀ (n : List Nat) (x : C σ), x.ended = false →
    x.st = .attrName → x.rest = w ++ l → x.tag.attrs = (n, v) :: a →
    Path S refs x { x with rest := l, tag := { x.tag with attrs := (n ++ w, v) :: a } } := by
  induction w with
  | nil =>
    intro n x he hst hr ha
    have : ({ x with rest := l, tag := { x.tag with attrs := (n ++ [], v) :: a } } : C σ) = x := by
      rw [List.append_nil, ← ha]; simp only [List.nil_append] at hr; rw [← hr]
    rw [this]; exact .refl _ _ _
  | cons c w ih =>
    intro n x he hst hr ha
    refine (Path.one (row_attr_name _ refs x he c _ n v a hst hr (hw c (by simp)).1 (hw c (by simp)).2 ha) (by fine)).trans ?_
    have := ih (fun d hd => hw d (by simp [hd])) (n ++ [c]) { x with rest := w ++ l, tag := { x.tag with attrs := (n ++ [c], v) :: a } } he hst rfl rfl
    simpa using this

theorem doctype_name_path (w l : List Nat) (hw : ∀ c ∈ w, NameChar c) : ∀ x : C σ, x.ended = false → x.st = .doctypeName → x.rest = w ++ l →
    Path S refs x { x with rest := l, dtName := x.dtName ++ w } := by
  induction w with
  | nil =>
    intro x he hst hr
    have : ({ x with rest := l, dtName := x.dtName ++ [] } : C σ) = x := by
      rw [List.append_nil]; simp only [List.nil_append] at hr; rw [← hr]
    rw [this]; exact .refl _ _ _
  | cons c w ih =>
    intro x he hst hr
    refine (Path.one (row_doctype_name _ refs x he c _ hst hr (hw c (by simp))) (by fine)).trans ?_
    have := ih (fun d hd => hw d (by simp [hd])) { x with rest := w ++ l, dtName := x.dtName ++ [c] } he hst rfl
    simpa using this

/-! ### Attributes -/

/-- In a tag, with these attributes so far. -/
structure InTag (st : Spec.HtmlTok.St) (rest : List Nat) (t : Spec.HtmlTok.Tag) (s : σ) (x : C σ) : Prop where
  st : x.st = st
  rest : x.rest = rest
  tag : x.tag = t
  sink : x.sink = s
  ended : x.ended = false

theorem value_path (hK : Knows refs) (k l : List Nat) (a) (t : Spec.HtmlTok.Tag) (z : σ) (w : List Nat) (h0 : 0 ∉ w) : ∀ (v : List Nat) (x : C σ),
    InTag .attrValueDq (escape true w ++ l) { t with attrs := (k, v) :: a } z x →
    ∃ y, Path S refs x y ∧ InTag .attrValueDq l { t with attrs := (k, v ++ w) :: a } z y := by
  induction w with
  | nil => intro v x h; exact ⟨x, .refl _ _ _, by simpa [escape] using h⟩
  | cons c w ih =>
    intro v x h
    obtain ⟨hst, hr, ht, hs, he⟩ := h
    rw [escape_cons, List.append_assoc] at hr
    have ha : x.tag.attrs = (k, v) :: a := by rw [ht]
    suffices h : ∃ y, Path S refs x y ∧ InTag .attrValueDq (escape true w ++ l) { t with attrs := (k, v ++ [c]) :: a } z y by
      obtain ⟨y, hp, hy⟩ := h
      obtain ⟨y', hp', hy'⟩ := ih (by simp at h0; tauto) _ _ hy
      exact ⟨y', hp.trans hp', by simpa using hy'⟩
    by_cases h1 : c = 0x26
    · subst h1
      exact ⟨_, ref_value hK (codes "amp;") 0x26 (by simp) x _ k v a he hst hr ha, rfl, rfl, by rw [ht], hs, he⟩
    by_cases h2 : c = 0xA0
    · subst h2
      exact ⟨_, ref_value hK (codes "nbsp;") 0xA0 (by simp) x _ k v a he hst hr ha, rfl, rfl, by rw [ht], hs, he⟩
    by_cases h3 : c = 0x22
    · subst h3
      exact ⟨_, ref_value hK (codes "quot;") 0x22 (by simp) x _ k v a he hst hr ha, rfl, rfl, by rw [ht], hs, he⟩
    have : escape true [c] = [c] := by simp [escape, h1, h2, h3]
    rw [this] at hr
    exact ⟨_, Path.one (row_value _ refs x he c _ k v a hst hr h3 h1 (by rintro rfl; simp at h0) ha) (by fine), hst, rfl, by rw [ht], hs, he⟩

/-- One attribute, behind the tag name or another attribute. -/
theorem attr_path (hK : Knows refs) (q : Spec.HtmlTok.St) (hq : q = .tagName ∨ q = .afterAttrValue) (b : Spec.HtmlSerial.Attr) (hb : PlainAttr b)
    (l : List Nat) (t : Spec.HtmlTok.Tag) (z : σ) (x : C σ)
    (h : InTag q (codes " " ++ Spec.HtmlSerial.attrName b ++ codes "=\"" ++ escape true b.val ++ codes "\"" ++ l) t z x) :
    ∃ y, Path S refs x y ∧ InTag .afterAttrValue l { t with attrs := (b.name, b.val) :: t.attrs } z y := by
  obtain ⟨hns, hne, hn, h0, _⟩ := hb
  obtain ⟨hst, hr, ht, hs, he⟩ := h
  have hname : Spec.HtmlSerial.attrName b = b.name := by simp [Spec.HtmlSerial.attrName, hns]
  rw [hname] at hr
  obtain ⟨c, r, hc⟩ : ∃ c r, b.name = c :: r := by
    cases hb : b.name with
    | nil => exact absurd hb hne
    | cons c r => exact ⟨c, r, rfl⟩
  have hr' : x.rest = 0x20 :: (b.name ++ 0x3D :: 0x22 :: (escape true b.val ++ 0x22 :: l)) := by
    rw [hr]; simp [codes]
  have p1 : Path S refs x { x with st := .beforeAttrName, rest := b.name ++ 0x3D :: 0x22 :: (escape true b.val ++ 0x22 :: l) } := by
    rcases hq with rfl | rfl
    · exact Path.one (row_name_sp _ refs x he _ hst hr') (by fine)
    · exact Path.one (row_after_sp _ refs x he _ hst hr') (by fine)
  have p2 := Path.one (S := S) (refs := refs) (row_attr_new _ refs { x with st := .beforeAttrName, rest := b.name ++ 0x3D :: 0x22 :: (escape true b.val ++ 0x22 :: l) } he c _ rfl
    (by show b.name ++ _ = _; rw [hc]; rfl) (hn c (by simp [hc])).1 (hn c (by simp [hc])).2) (by fine)
  have p3 := attr_name_path (S := S) (refs := refs) b.name (0x3D :: 0x22 :: (escape true b.val ++ 0x22 :: l)) [] x.tag.attrs hn []
    { x with st := .attrName, rest := b.name ++ 0x3D :: 0x22 :: (escape true b.val ++ 0x22 :: l), tag := { x.tag with attrs := ([], []) :: x.tag.attrs } } he rfl rfl rfl
  have p4 := Path.one (S := S) (refs := refs) (row_attr_eq (envOf S) refs
    { x with st := .attrName, rest := 0x3D :: 0x22 :: (escape true b.val ++ 0x22 :: l), tag := { x.tag with attrs := ([] ++ b.name, []) :: x.tag.attrs } } he _ rfl rfl) (by fine)
  have p5 := Path.one (S := S) (refs := refs) (row_attr_quote (envOf S) refs
    { x with st := .beforeAttrValue, rest := 0x22 :: (escape true b.val ++ 0x22 :: l), tag := { x.tag with attrs := ([] ++ b.name, []) :: x.tag.attrs } } he _ rfl rfl) (by fine)
  obtain ⟨y, p6, hy⟩ := value_path (S := S) (refs := refs) hK b.name (0x22 :: l) t.attrs t z b.val h0 []
    { x with st := .attrValueDq, rest := escape true b.val ++ 0x22 :: l, tag := { x.tag with attrs := ([] ++ b.name, []) :: x.tag.attrs } }
    ⟨rfl, rfl, by simp [ht], hs, he⟩
  obtain ⟨hst', hr'', ht', hs', he'⟩ := hy
  have p7 := Path.one (S := S) (refs := refs) (row_value_end (envOf S) refs y he' l hst' hr'') (by fine)
  exact ⟨_, p1.trans (p2.trans (p3.trans (p4.trans (p5.trans (p6.trans p7))))), rfl, rfl, by simpa using ht', hs', he'⟩

theorem attrs_path (hK : Knows refs) (l : List Nat) (z : σ) (as : List Spec.HtmlSerial.Attr) (has : ∀ a ∈ as, PlainAttr a) :
    ∀ (q : Spec.HtmlTok.St) (_ : q = .tagName ∨ q = .afterAttrValue) (t : Spec.HtmlTok.Tag) (x : C σ),
    InTag q (Spec.HtmlSerial.attrsOut as ++ l) t z x →
    ∃ y q', (q' = .tagName ∨ q' = .afterAttrValue) ∧ Path S refs x y ∧
      InTag q' l { t with attrs := (as.map fun a => (a.name, a.val)).reverse ++ t.attrs } z y := by
  induction as with
  | nil => intro q hq t x h; exact ⟨x, q, hq, .refl _ _ _, by simpa [Spec.HtmlSerial.attrsOut] using h⟩
  | cons b as ih =>
    intro q hq t x h
    have : Spec.HtmlSerial.attrsOut (b :: as) ++ l = codes " " ++ Spec.HtmlSerial.attrName b ++ codes "=\"" ++ escape true b.val ++ codes "\"" ++ (Spec.HtmlSerial.attrsOut as ++ l) := by
      simp [Spec.HtmlSerial.attrsOut]
    rw [this] at h
    obtain ⟨y, hp, hy⟩ := attr_path hK q hq b (has b (by simp)) _ t z x h
    obtain ⟨y', q', hq', hp', hy'⟩ := ih (fun a ha => has a (by simp [ha])) _ (.inr rfl) _ y hy
    exact ⟨y', q', hq', hp.trans hp', by simpa using hy'⟩

theorem firsts_nodup (l : List (List Nat × List Nat)) (h : (l.map (·.1)).Nodup) : Spec.HtmlTok.firsts l = l := by
  suffices H : ∀ (l acc : List (List Nat × List Nat)), ((acc ++ l).map (·.1)).Nodup →
      l.foldl (fun acc a => if acc.any (fun b => b.1 == a.1) then acc else acc ++ [a]) acc = acc ++ l by
    simpa [Spec.HtmlTok.firsts] using H l [] (by simpa using h)
  intro l
  induction l with
  | nil => intro acc _; simp
  | cons a l ih =>
    intro acc h
    rw [List.foldl_cons, if_neg]
    · rw [ih _ (by simpa using h)]; simp
    · simp only [List.any_eq_true, beq_iff_eq, not_exists, not_and]
      intro b hb hab
      rw [List.map_append, List.nodup_append] at h
      exact h.2.2 b.1 (List.mem_map_of_mem hb) a.1 (by simp) hab

/-! ### Tags -/

/-- The stage does not switch the tokenizer at any of these tokens. -/
def Calm (S : Sink σ) : σ → List Tok → Prop
  | _, [] => True
  | z, t :: l => S.switch (S.emit z t) = none ∧ Calm S (S.emit z t) l

theorem calm_append {z : σ} {a b : List Tok} : Calm S z (a ++ b) ↔ Calm S z a ∧ Calm S (a.foldl S.emit z) b := by
  induction a generalizing z with
  | nil => simp [Calm]
  | cons t a ih => simp only [List.cons_append, Calm, ih, List.foldl_cons, and_assoc]

theorem calm_all (hS : ∀ s, S.switch s = none) (z : σ) (l : List Tok) : Calm S z l := by
  induction l generalizing z with
  | nil => trivial
  | cons t l ih => exact ⟨hS _, ih _⟩

theorem start_path (hK : Knows refs) (name : List Nat) (as : List Spec.HtmlSerial.Attr) (hn : TagName name)
    (has : ∀ a ∈ as, PlainAttr a) (hd : (as.map (·.name)).Nodup) (l : List Nat) (z : σ)
    (hS : S.switch (S.emit z (.startTag name (as.map fun a => (a.name, a.val)) false)) = none) (x : C σ)
    (h : AtData (codes "<" ++ name ++ Spec.HtmlSerial.attrsOut as ++ codes ">" ++ l) z x) :
    ∃ y, Path S refs x y ∧ AtData l (S.emit z (.startTag name (as.map fun a => (a.name, a.val)) false)) y := by
  obtain ⟨⟨c, r, hc, hc1, hc2⟩, hall⟩ := hn
  obtain ⟨hst, hr, hs, he⟩ := h
  have hr' : x.rest = 0x3C :: (name ++ (Spec.HtmlSerial.attrsOut as ++ 0x3E :: l)) := by rw [hr]; simp [codes]
  have p1 := Path.one (S := S) (refs := refs) (row_data_lt (envOf S) refs x he _ hst hr') (by fine)
  have p2 := Path.one (S := S) (refs := refs) (row_open_name (envOf S) refs { x with st := .tagOpen, rest := name ++ (Spec.HtmlSerial.attrsOut as ++ 0x3E :: l) } he c _ rfl
    (by show name ++ _ = _; rw [hc]; rfl) hc1 hc2) (by fine)
  have p3 := name_path (S := S) (refs := refs) name (Spec.HtmlSerial.attrsOut as ++ 0x3E :: l) hall
    { x with st := .tagName, rest := name ++ (Spec.HtmlSerial.attrsOut as ++ 0x3E :: l), tag := ⟨false, [], false, []⟩ } he rfl rfl
  obtain ⟨y, q, hq, p4, hy⟩ := attrs_path (S := S) hK (0x3E :: l) z as has .tagName (.inl rfl) ⟨false, [] ++ name, false, []⟩
    { x with st := .tagName, rest := Spec.HtmlSerial.attrsOut as ++ 0x3E :: l, tag := ⟨false, [] ++ name, false, []⟩ } ⟨rfl, rfl, rfl, hs, he⟩
  obtain ⟨hst', hr'', ht', hs', he'⟩ := hy
  have p5 : Path S refs y (Spec.HtmlTok.emitTag (envOf S) { y with st := .data, rest := l }) := by
    rcases hq with rfl | rfl
    · exact Path.one (row_name_gt _ refs y he' _ hst' hr'') (by fine)
    · exact Path.one (row_after_gt _ refs y he' _ hst' hr'') (by fine)
  refine ⟨_, p1.trans (p2.trans (p3.trans (p4.trans p5))), ?_⟩
  have hf : Spec.HtmlTok.firsts (y.tag.attrs.reverse) = as.map fun a => (a.name, a.val) := by
    rw [ht']
    simp only [List.append_nil, List.reverse_reverse]
    exact firsts_nodup _ (by simpa [List.map_map, Function.comp_def] using hd)
  have hname : y.tag.name = name := by rw [ht']; rfl
  have hend : y.tag.isEnd = false := by rw [ht']
  have hself : y.tag.self = false := by rw [ht']
  unfold Spec.HtmlTok.emitTag
  simp only [hf, hend, hname, hself, Spec.HtmlTok.emit, Bool.false_eq_true, if_false]
  refine ⟨?_, rfl, by simp [envOf, erase, hs'], he'⟩
  simp [envOf, erase, hs', hS]

theorem end_path (name : List Nat) (hn : TagName name) (l : List Nat) (z : σ) (x : C σ)
    (h : AtData (codes "</" ++ name ++ codes ">" ++ l) z x) :
    ∃ y, Path S refs x y ∧ AtData l (S.emit z (.endTag name [] false)) y := by
  obtain ⟨⟨c, r, hc, hc1, hc2⟩, hall⟩ := hn
  obtain ⟨hst, hr, hs, he⟩ := h
  have hr' : x.rest = 0x3C :: 0x2F :: (name ++ 0x3E :: l) := by rw [hr]; simp [codes]
  have p1 := Path.one (S := S) (refs := refs) (row_data_lt (envOf S) refs x he _ hst hr') (by fine)
  have p1' := Path.one (S := S) (refs := refs) (row_open_end (envOf S) refs { x with st := .tagOpen, rest := 0x2F :: (name ++ 0x3E :: l) } he _ rfl rfl) (by fine)
  have p2 := Path.one (S := S) (refs := refs) (row_end_name (envOf S) refs { x with st := .endTagOpen, rest := name ++ 0x3E :: l } he c _ rfl
    (by show name ++ _ = _; rw [hc]; rfl) hc1 hc2) (by fine)
  have p3 := name_path (S := S) (refs := refs) name (0x3E :: l) hall
    { x with st := .tagName, rest := name ++ 0x3E :: l, tag := ⟨true, [], false, []⟩ } he rfl rfl
  have p4 := Path.one (S := S) (refs := refs) (row_name_gt (envOf S) refs
    { x with st := .tagName, rest := 0x3E :: l, tag := ⟨true, [] ++ name, false, []⟩ } he _ rfl rfl) (by fine)
  refine ⟨_, p1.trans (p1'.trans (p2.trans (p3.trans p4))), rfl, rfl, ?_, he⟩
  simp [Spec.HtmlTok.emitTag, Spec.HtmlTok.emit, envOf, erase, Spec.HtmlTok.firsts, hs]

/-! ### Document types -/

theorem doctype_path (name : List Nat) (h0 : name ≠ []) (hn : ∀ c ∈ name, NameChar c) (l : List Nat) (z : σ) (x : C σ)
    (h : AtData (codes "<!DOCTYPE " ++ name ++ codes ">" ++ l) z x) :
    ∃ y, Path S refs x y ∧ AtData l (S.emit z (.doctype ⟨name, [], [], false⟩)) y := by
  obtain ⟨hst, hr, hs, he⟩ := h
  obtain ⟨c, r, rfl⟩ : ∃ c r, name = c :: r := by
    cases name with
    | nil => exact absurd rfl h0
    | cons c r => exact ⟨c, r, rfl⟩
  have hr' : x.rest = 0x3C :: 0x21 :: 0x44 :: 0x4F :: 0x43 :: 0x54 :: 0x59 :: 0x50 :: 0x45 :: 0x20 :: c :: (r ++ 0x3E :: l) := by
    rw [hr]; simp [codes]
  have p1 := Path.one (S := S) (refs := refs) (row_data_lt (envOf S) refs x he _ hst hr') (by fine)
  have p2 := Path.one (S := S) (refs := refs) (row_open_bang (envOf S) refs
    { x with st := .tagOpen, rest := 0x21 :: 0x44 :: 0x4F :: 0x43 :: 0x54 :: 0x59 :: 0x50 :: 0x45 :: 0x20 :: c :: (r ++ 0x3E :: l) } he _ rfl rfl) (by fine)
  have p3 : Path S refs { x with st := .markupDecl, rest := 0x44 :: 0x4F :: 0x43 :: 0x54 :: 0x59 :: 0x50 :: 0x45 :: 0x20 :: c :: (r ++ 0x3E :: l) }
      { x with st := .doctype, rest := 0x20 :: c :: (r ++ 0x3E :: l) } := by
    refine Path.one ?_ ⟨⟨?_, by simp⟩, by simp⟩
    · unfold Spec.HtmlTok.step
      simp [he, Spec.HtmlTok.markup, Spec.HtmlTok.nextIs, Spec.HtmlTok.lowered, Spec.HtmlTok.isUpper]
    · rintro (⟨h, _⟩ | ⟨h, _⟩ | ⟨_, h, _⟩ | ⟨h, _⟩)
      · exact absurd h (by simp)
      · exact absurd h (by simp)
      · simp at h
      · exact absurd h (by simp)
  have p4 := Path.one (S := S) (refs := refs) (row_doctype (envOf S) refs { x with st := .doctype, rest := 0x20 :: c :: (r ++ 0x3E :: l) } he _ rfl rfl) (by fine)
  have p5 := Path.one (S := S) (refs := refs) (row_doctype_first (envOf S) refs { x with st := .beforeDoctypeName, rest := c :: (r ++ 0x3E :: l) } he c _ rfl rfl (hn c (by simp))) (by fine)
  have p6 := doctype_name_path (S := S) (refs := refs) r (0x3E :: l) (fun d hd => hn d (by simp [hd]))
    { x with st := .doctypeName, rest := r ++ 0x3E :: l, dtName := [c], pub := none, sys := none, quirks := false } he rfl rfl
  have p7 := Path.one (S := S) (refs := refs) (row_doctype_gt (envOf S) refs
    { x with st := .doctypeName, rest := 0x3E :: l, dtName := [c] ++ r, pub := none, sys := none, quirks := false } he _ rfl rfl) (by fine)
  exact ⟨_, p1.trans (p2.trans (p3.trans (p4.trans (p5.trans (p6.trans p7))))), rfl, rfl, by simp [envOf, erase, hs], he⟩

end Verif.Proof.HtmlRoundTrip
