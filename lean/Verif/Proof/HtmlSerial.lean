import Verif.Spec.HtmlSerial
import Verif.Props.HtmlAtom
/- Lemmas about the pieces that the HTML serializer writes. -/
namespace Verif.Proof.HtmlSerial
open Verif.Model.Unicode Verif.Model.HtmlAtom Verif.Spec Verif.Spec.HtmlAtom Verif.Props.Unicode Verif.Proof.Unicode
open Verif.Proof.HtmlAtom Verif.Props.HtmlAtom Verif.Model.HtmlSerial
open Verif.Spec.HtmlSerial (Shown Str ShowsAttr ShowsAttrs ShowsData Shows ShowsAll HtmlElement voidNames rawNames htmlNs mathNs
  svgNs xlinkNs xmlNs xmlnsNs Dom)
open Verif (Spec.HtmlSerial.Data)

theorem form_append (ct : CharT) (s t : List Nat) : formOf ct (s ++ t) = formOf ct s ++ formOf ct t := by
  rw [formOf_eq, formOf_eq, formOf_eq, List.flatMap_append]

theorem cat_some (s t : List Nat) : cat (some s) (some t) = some (s ++ t) := rfl

theorem cat_form (ct : CharT) (s t : List Nat) : cat (some (formOf ct s)) (some (formOf ct t)) = some (formOf ct (s ++ t)) := by
  rw [cat_some, form_append]

theorem scalar_of_lt {s : List Nat} (h : ∀ c ∈ s, c < 128) : ∀ c ∈ s, IsScalar c := by
  intro c hc
  have := h c hc
  unfold IsScalar; omega

theorem lit_eq (dst : CharT) (s : List Nat) (h : ∀ c ∈ s, c < 128) : lit dst s = some (formOf dst s) :=
  C26_encoding_cast .c32 dst s (scalar_of_lt h)

theorem cast_str (ct dst : CharT) (u s : List Nat) (h : Str ct u s) : encodingCast ct dst u = some (formOf dst s) := by
  rw [h.2]; exact C26_encoding_cast ct dst s h.1

theorem cast_shown (ct dst : CharT) (k : Kind) (a : Atom) (s : List Nat) (h : Shown ct k a s) :
    castOut ct dst (toStr ct k a) = some (formOf dst s) := by
  rw [h.2.2]; exact C26_encoding_cast ct dst s h.2.1

/-! ### Names -/

theorem shown_id (ct : CharT) (k : Kind) (a : Atom) (s : List Nat) (h : Shown ct k a s) : a.id = (find s (map k)).getD 0 := by
  obtain ⟨t, t1, t2, t3⟩ := made ct k a h.1
  have : formOf ct s = formOf ct t := by
    have := h.2.2; rw [t2] at this; injection this with this; exact this.symm
  rw [t3, form_inj ct s t h.2.1 t1 this]

theorem shown_iff (ct : CharT) (k : Kind) (a : Atom) (s : List Nat) (h : Shown ct k a s) (i : Nat) (hi : i ≠ 0) :
    toName a = i ↔ (names k)[i]? = some s := by
  unfold toName
  rw [shown_id ct k a s h]
  constructor
  · intro e
    cases hf : find s (map k) with
    | none => rw [hf] at e; exact absurd e.symm hi
    | some j =>
      rw [hf] at e
      have e : j = i := e
      subst e
      exact ((find_iff k s j).mp hf).2
  · intro e
    rw [(find_iff k s i).mpr ⟨hi, e⟩]; rfl

theorem name_is (ct : CharT) (k : Kind) (a : Atom) (s t : List Nat) (h : Shown ct k a s) (i : Nat) (hi : i ≠ 0)
    (ht : (names k)[i]? = some t) : toName a = i ↔ s = t := by
  rw [shown_iff ct k a s h i hi, ht]
  constructor
  · intro e; injection e with e; exact e.symm
  · rintro rfl; rfl

/-- No name of the tables. -/
theorem name_zero (ct : CharT) (k : Kind) (a : Atom) (s : List Nat) (h : Shown ct k a s) :
    toName a = 0 ↔ s = [] ∨ s ∉ names k := by
  unfold toName
  rw [shown_id ct k a s h]
  constructor
  · intro e
    by_cases hs : s = []
    · exact Or.inl hs
    · right
      intro hm
      obtain ⟨i, hi⟩ := List.mem_iff_getElem?.mp hm
      have h0 : i ≠ 0 := by
        rintro rfl
        rw [zero] at hi
        injection hi with hi
        exact hs hi.symm
      rw [(find_iff k s i).mpr ⟨h0, hi⟩] at e
      exact h0 e
  · intro e
    cases hf : find s (map k) with
    | none => rfl
    | some i =>
      have := (find_iff k s i).mp hf
      rcases e with rfl | e
      · exact absurd this.2 (nonempty k i this.1)
      · exact absurd (List.mem_of_getElem? this.2) e

theorem ns_html : (names .ns)[1]? = some htmlNs := by decide +kernel
theorem ns_math : (names .ns)[2]? = some mathNs := by decide +kernel
theorem ns_svg : (names .ns)[3]? = some svgNs := by decide +kernel
theorem ns_xlink : (names .ns)[4]? = some xlinkNs := by decide +kernel
theorem ns_xml : (names .ns)[5]? = some xmlNs := by decide +kernel
theorem ns_xmlns : (names .ns)[6]? = some xmlnsNs := by decide +kernel
theorem attr_xmlns : (names .attr)[621]? = some (codes "xmlns") := by decide +kernel

/-- Enumerators by number and strings by name are the same elements. -/
theorem tags_iff (ct : CharT) (a : Atom) (s : List Nat) (h : Shown ct .tag a s) (l : List Nat) (m : List (List Nat))
    (hl : l.map (fun i => (names .tag)[i]?) = m.map some) (h0 : 0 ∉ l) : l.contains (toName a) = true ↔ s ∈ m := by
  rw [List.contains_iff_mem]
  constructor
  · intro hm
    have h1 : toName a ≠ 0 := fun e => h0 (e ▸ hm)
    have h2 := (shown_iff ct .tag a s h _ h1).mp rfl
    have : some s ∈ m.map some := by rw [← hl, ← h2]; exact List.mem_map_of_mem hm
    simpa using this
  · intro hm
    have : some s ∈ l.map (fun i => (names .tag)[i]?) := by rw [hl]; exact List.mem_map_of_mem hm
    obtain ⟨i, hi, hs⟩ := List.mem_map.mp this
    have h1 : i ≠ 0 := fun e => h0 (e ▸ hi)
    rw [(shown_iff ct .tag a s h i h1).mpr hs]
    exact hi

theorem void_iff (ct : CharT) (d : Data) (d' : Spec.HtmlSerial.Data) (h : ShowsData ct d d') :
    serializesAsVoid d = true ↔ HtmlElement voidNames d' := by
  cases d with
  | element e =>
    cases d' with
    | element ns pre name attrs =>
      obtain ⟨h1, h2, h3, h4⟩ := h
      have e1 := tags_iff ct e.name name h3 voidTags (voidNames.take 14) (by decide +kernel) (by decide)
      have e2 := tags_iff ct e.name name h3 moreVoidTags (voidNames.drop 14) (by decide +kernel) (by decide)
      have e3 : name ∈ voidNames ↔ name ∈ voidNames.take 14 ∨ name ∈ voidNames.drop 14 := by
        rw [← List.mem_append, List.take_append_drop]
      have e4 := name_is ct .ns e.ns ns htmlNs h1 1 (by decide) ns_html
      unfold serializesAsVoid isVoid HtmlElement
      dsimp only
      rw [e3, ← e1, ← e2, ← e4]
      by_cases a : toName e.ns = 1 <;> simp [a]
    | _ => exact h.elim
  | text s => cases d' <;> simp [ShowsData] at h <;> simp [serializesAsVoid, isVoid, HtmlElement]
  | pi s t => cases d' <;> simp [ShowsData] at h <;> simp [serializesAsVoid, isVoid, HtmlElement]
  | comment s => cases d' <;> simp [ShowsData] at h <;> simp [serializesAsVoid, isVoid, HtmlElement]
  | doctype s => cases d' <;> simp [ShowsData] at h <;> simp [serializesAsVoid, isVoid, HtmlElement]
  | document => cases d' <;> simp [ShowsData] at h <;> simp [serializesAsVoid, isVoid, HtmlElement]
  | fragment => cases d' <;> simp [ShowsData] at h <;> simp [serializesAsVoid, isVoid, HtmlElement]

theorem qualified_eq (ct : CharT) (k : Kind) (pre : List Nat) (a : Atom) (p s : List Nat) (hp : Str ct pre p)
    (h : Shown ct k a s) : qualified ct k pre a = some (formOf ct (Spec.HtmlSerial.qualified p s)) ∧
      ∀ c ∈ Spec.HtmlSerial.qualified p s, IsScalar c := by
  unfold qualified Spec.HtmlSerial.qualified
  rw [h.2.2]
  dsimp only
  have e : pre = [] ↔ p = [] := by rw [hp.2]; exact form_nil ct p hp.1
  by_cases hc : p = []
  · rw [if_pos (e.mpr hc), if_pos hc]
    exact ⟨rfl, h.2.1⟩
  · rw [if_neg (fun x => hc (e.mp x)), if_neg hc]
    have : toString ct 0x3A = some (formOf ct (codes ":")) := by cases ct <;> decide +kernel
    rw [this, hp.2]
    refine ⟨by rw [form_append, form_append], ?_⟩
    intro c hm
    rcases List.mem_append.mp hm with hm | hm
    · rcases List.mem_append.mp hm with hm | hm
      · exact hp.1 c hm
      · exact scalar_of_lt (by decide +kernel) c hm
    · exact h.2.1 c hm

theorem tagName_eq (ct dst : CharT) (e : Elem) (ns pre name : List Nat) (h1 : Shown ct .ns e.ns ns) (h2 : Str ct e.pre pre)
    (h3 : Shown ct .tag e.name name) : tagName ct dst (.element e) = some (formOf dst (Spec.HtmlSerial.tagName ns pre name)) := by
  unfold tagName Spec.HtmlSerial.tagName
  dsimp only
  have hi : toName e.ns = 1 ∨ toName e.ns = 2 ∨ toName e.ns = 3 ↔ ns = htmlNs ∨ ns = mathNs ∨ ns = svgNs := by
    rw [name_is ct .ns e.ns ns htmlNs h1 1 (by decide) ns_html, name_is ct .ns e.ns ns mathNs h1 2 (by decide) ns_math,
      name_is ct .ns e.ns ns svgNs h1 3 (by decide) ns_svg]
  by_cases hc : ns = htmlNs ∨ ns = mathNs ∨ ns = svgNs
  · rw [if_pos (hi.mpr hc), if_pos hc]
    exact cast_shown ct dst .tag e.name name h3
  · rw [if_neg (fun x => hc (hi.mp x)), if_neg hc]
    obtain ⟨a, b⟩ := qualified_eq ct .tag e.pre e.name pre name h2 h3
    rw [a]
    exact C26_encoding_cast ct dst _ b

/-! ### Attributes -/

/-- The name that the code writes: that of the standard, unless the namespace is foreign. -/
def attrName' (a : Spec.HtmlSerial.Attr) : List Nat :=
  if a.ns ∈ names .ns then Spec.HtmlSerial.attrName a else a.name

theorem attrName_eq (ct dst : CharT) (a : Attr) (b : Spec.HtmlSerial.Attr) (h : ShowsAttr ct a b) :
    attrName ct dst a = some (formOf dst (attrName' b)) := by
  obtain ⟨h1, h2, h3, h4⟩ := h
  have hn := cast_shown ct dst .attr a.name b.name h3
  have n0 := name_zero ct .ns a.ns b.ns h1
  have n5 := name_is ct .ns a.ns b.ns xmlNs h1 5 (by decide) ns_xml
  have n6 := name_is ct .ns a.ns b.ns xmlnsNs h1 6 (by decide) ns_xmlns
  have n4 := name_is ct .ns a.ns b.ns xlinkNs h1 4 (by decide) ns_xlink
  have nx := name_is ct .attr a.name b.name (codes "xmlns") h3 621 (by decide) attr_xmlns
  unfold attrName attrName' Spec.HtmlSerial.attrName
  by_cases hk : b.ns ∈ names .ns
  · rw [if_pos hk]
    by_cases c0 : b.ns = []
    · rw [if_pos (n0.mpr (Or.inl c0)), if_pos c0]; exact hn
    rw [if_neg (fun x => (n0.mp x).elim c0 (fun y => y hk)), if_neg c0]
    by_cases c1 : b.ns = xmlNs
    · rw [if_pos (n5.mpr c1), if_pos c1, hn, lit_eq dst _ (by decide), cat_form]
      rfl
    rw [if_neg (fun x => c1 (n5.mp x)), if_neg c1]
    by_cases c2 : b.ns = xmlnsNs
    · rw [if_pos (n6.mpr c2)]
      by_cases c3 : b.name = codes "xmlns"
      · rw [if_pos (nx.mpr c3), if_pos ⟨c2, c3⟩, lit_eq dst _ (by decide)]
        rfl
      · rw [if_neg (fun x => c3 (nx.mp x)), if_neg (fun x => c3 x.2), if_pos c2, hn, lit_eq dst _ (by decide), cat_form]
        rfl
    rw [if_neg (fun x => c2 (n6.mp x)), if_neg (fun x : b.ns = xmlnsNs ∧ b.name = codes "xmlns" => c2 x.1), if_neg c2]
    by_cases c4 : b.ns = xlinkNs
    · rw [if_pos (n4.mpr c4), if_pos c4, hn, lit_eq dst _ (by decide), cat_form]
      rfl
    rw [if_neg (fun x => c4 (n4.mp x)), if_neg c4]
    obtain ⟨x, y⟩ := qualified_eq ct .attr a.pre a.name b.pre b.name h2 h3
    rw [x]
    exact C26_encoding_cast ct dst _ y
  · rw [if_neg hk, if_pos (n0.mpr (Or.inr hk))]
    exact hn

/-! ### Escaping -/

/-- What is written for one code point. -/
def esc (attr : Bool) (c : Nat) : List Nat :=
  if c = 0x26 then codes "&amp;"
  else if c = 0xA0 then codes "&nbsp;"
  else if c = 0x22 ∧ attr = true then codes "&quot;"
  else if c = 0x3C ∧ attr = false then codes "&lt;"
  else if c = 0x3E ∧ attr = false then codes "&gt;"
  else [c]

theorem escape_esc (attr : Bool) (s : List Nat) : Spec.HtmlSerial.escape attr s = s.flatMap (esc attr) := rfl

theorem toString_form (dst : CharT) (c : Nat) (h : IsScalar c) : toString dst c = some (formOf dst [c]) := by
  rw [formOf_eq]
  simp only [List.flatMap_cons, List.flatMap_nil, List.append_nil]
  have := foldlM_emit dst [c] [] (by simpa using h)
  simp only [List.foldlM_cons, List.foldlM_nil, emit] at this
  cases ht : toString dst c with
  | none => rw [ht] at this; simp at this
  | some u => rw [ht] at this; simpa using this

theorem escapeCp_eq (dst : CharT) (attr : Bool) (c : Nat) (h : IsScalar c) :
    escapeCp dst attr c = some (formOf dst (esc attr c)) := by
  have l1 : lit dst [0x26, 0x61, 0x6D, 0x70, 0x3B] = some (formOf dst (codes "&amp;")) := lit_eq dst _ (by decide)
  have l2 : lit dst [0x26, 0x6E, 0x62, 0x73, 0x70, 0x3B] = some (formOf dst (codes "&nbsp;")) := lit_eq dst _ (by decide)
  have l3 : lit dst [0x26, 0x71, 0x75, 0x6F, 0x74, 0x3B] = some (formOf dst (codes "&quot;")) := lit_eq dst _ (by decide)
  have l4 : lit dst [0x26, 0x6C, 0x74, 0x3B] = some (formOf dst (codes "&lt;")) := lit_eq dst _ (by decide)
  have l5 : lit dst [0x26, 0x67, 0x74, 0x3B] = some (formOf dst (codes "&gt;")) := lit_eq dst _ (by decide)
  have ht := toString_form dst c h
  unfold escapeCp esc
  rw [l1, l2, l3, l4, l5]
  cases attr
  · by_cases c1 : c = 0x26
    · simp [c1]
    by_cases c2 : c = 0xA0
    · simp [c2]
    by_cases c3 : c = 0x3C
    · simp [c3]
    by_cases c4 : c = 0x3E
    · simp [c4]
    simp [c1, c2, c3, c4, ht]
  · by_cases c1 : c = 0x26
    · simp [c1]
    by_cases c2 : c = 0xA0
    · simp [c2]
    by_cases c3 : c = 0x22
    · simp [c3]
    simp [c1, c2, c3, ht]

theorem escape_fold (dst : CharT) (attr : Bool) (s : List Nat) (hs : ∀ c ∈ s, IsScalar c) (acc : List Nat) :
    s.foldlM (fun out cp => cat (some out) (escapeCp dst attr cp)) acc = some (acc ++ formOf dst (s.flatMap (esc attr))) := by
  induction s generalizing acc with
  | nil => cases dst <;> simp [formOf] <;> rfl
  | cons c s ih =>
    rw [List.foldlM_cons, escapeCp_eq dst attr c (hs c (by simp))]
    show Option.bind (cat (some acc) (some _)) _ = _
    rw [cat_some, Option.bind_some, ih (fun x hx => hs x (by simp [hx])), List.flatMap_cons, form_append, List.append_assoc]

theorem escape_eq (ct dst : CharT) (attr : Bool) (u s : List Nat) (h : Str ct u s) :
    escape ct dst attr u = some (formOf dst (Spec.HtmlSerial.escape attr s)) := by
  unfold escape
  rw [h.2, formOf_eq ct, loopCP_foldlM ct _ _ _ h.1, escape_fold dst attr s h.1, escape_esc, List.nil_append]

/-- The attributes as the code writes them. -/
def attrsOut' (l : List Spec.HtmlSerial.Attr) : List Nat :=
  l.flatMap fun a => codes " " ++ attrName' a ++ codes "=\"" ++ Spec.HtmlSerial.escape true a.val ++ codes "\""

theorem attrsOut_eq (ct dst : CharT) (l : List Attr) (m : List Spec.HtmlSerial.Attr) (h : ShowsAttrs ct l m) :
    attrsOut ct dst l = some (formOf dst (attrsOut' m)) := by
  induction l generalizing m with
  | nil =>
    cases m with
    | nil => cases dst <;> rfl
    | cons => exact h.elim
  | cons a l ih =>
    cases m with
    | nil => exact h.elim
    | cons b m =>
      obtain ⟨h1, h2⟩ := h
      have e : attrsOut' (b :: m) = codes " " ++ (attrName' b ++ (codes "=" ++ (codes "\"" ++ (Spec.HtmlSerial.escape true b.val ++
          (codes "\"" ++ attrsOut' m))))) := by
        have : codes "=\"" = codes "=" ++ codes "\"" := by decide +kernel
        unfold attrsOut'
        rw [List.flatMap_cons, this]
        simp only [List.append_assoc]
      unfold attrsOut
      rw [ih m h2, attrName_eq ct dst a b h1, escape_eq ct dst true a.val b.val h1.2.2.2, lit_eq dst [0x20] (by decide),
        lit_eq dst [0x3D] (by decide), lit_eq dst [0x22] (by decide)]
      simp only [cat_form]
      rw [e]
      rfl

end Verif.Proof.HtmlSerial
