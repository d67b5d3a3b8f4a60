import Verif.Proof.HtmlSerialScalar
/- Properties C93 - C95: serializing HTML. -/
namespace Verif.Props.HtmlSerial
open Verif.Model.Unicode Verif.Model.HtmlAtom Verif.Spec Verif.Spec.HtmlAtom Verif.Props.Unicode Verif.Props.HtmlAtom
open Verif.Proof.HtmlSerial
open Verif.Spec.HtmlSerial (Shown Str ShowsAttr ShowsAttrs ShowsData Shows ShowsAll HtmlElement voidNames rawNames htmlNs
  Dom KnownNs Plain Plains Decodes Readable Readables Occurs)

/-! Sample trees. -/

/-- The atom of a string. -/
def atomOf (ct : CharT) (k : Kind) (s : List Nat) : Atom := ⟨formOf ct s, (find s (map k)).getD 0⟩

theorem shown_atom (ct : CharT) (k : Kind) (s : List Nat) (hs : ∀ c ∈ s, IsScalar c) : Shown ct k (atomOf ct k s) s := by
  obtain ⟨a, h1, h2⟩ := C90_string ct k s hs
  have h3 := ofString_form ct k s hs
  rw [h3] at h1
  injection h1 with h1
  exact ⟨.str s _ hs h3, hs, by rw [show atomOf ct k s = a from h1]; exact h2⟩

/-- An HTML element without attributes, of the library and of the standard. -/
def el (s : String) (ks : List Model.HtmlSerial.Node) : Model.HtmlSerial.Node :=
  .mk (.element ⟨atomOf .c32 .ns htmlNs, [], atomOf .c32 .tag (codes s), []⟩) ks

def el' (s : String) (ks : List Dom) : Dom := .mk (.element htmlNs [] (codes s) []) ks

def tx (s : String) : Model.HtmlSerial.Node := .mk (.text (codes s)) []
def tx' (s : String) : Dom := .mk (.text (codes s)) []

theorem scalar_html : ∀ c ∈ htmlNs, IsScalar c := by decide +kernel

theorem shows_el (s : String) (ks : List Model.HtmlSerial.Node) (ks' : List Dom) (hs : ∀ c ∈ codes s, IsScalar c)
    (h : ShowsAll .c32 ks ks') : Shows .c32 (el s ks) (el' s ks') := by
  unfold el el' Shows
  exact ⟨⟨shown_atom _ _ _ scalar_html, ⟨by simp, rfl⟩, shown_atom _ _ _ hs, trivial⟩, h⟩

theorem shows_tx (s : String) (hs : ∀ c ∈ codes s, IsScalar c) : Shows .c32 (tx s) (tx' s) := by
  unfold tx tx' Shows
  exact ⟨⟨hs, rfl⟩, by unfold ShowsAll; trivial⟩

theorem shows_one (n : Model.HtmlSerial.Node) (D : Dom) (h : Shows .c32 n D) : ShowsAll .c32 [n] [D] := by
  unfold ShowsAll; exact ⟨h, by unfold ShowsAll; trivial⟩

/-! C93. -/

/-- C93, in full: `to_string` writes every tree as the fragment serialization algorithm of the HTML standard says, in every
build and for every encoding of the tree and of the output. -/
def C93_statement : Prop :=
  ∀ (ct dst : CharT) (nd : Bool) (n : Model.HtmlSerial.Node) (D : Dom), Shows ct n D →
    Model.HtmlSerial.serialize ct dst nd n = some (formOf dst (Spec.HtmlSerial.serialize D))

/-- Children of a void element are written: `<br>` with a text in it becomes `<br>x`. -/
theorem C93_statement_false : ¬ C93_statement := by
  intro h
  have := h .c32 .c32 true (el "p" [el "br" [tx "x"]]) (el' "p" [el' "br" [tx' "x"]])
    (shows_el _ _ _ (by decide +kernel) (shows_one _ _ (shows_el _ _ _ (by decide +kernel) (shows_one _ _ (shows_tx _ (by decide +kernel))))))
  revert this
  decide +kernel

/-- A text that is a child of the document or fragment to be serialized fails an assertion, unless `NDEBUG`. -/
theorem C93_fragment_text : ∃ (ct dst : CharT) (n : Model.HtmlSerial.Node) (D : Dom), Shows ct n D ∧ Plains D.kids ∧
    Model.HtmlSerial.serialize ct dst false n = none := by
  refine ⟨.c32, .c32, .mk .fragment [tx "x"], .mk .other [tx' "x"], ?_, ?_, by decide +kernel⟩
  · unfold Shows
    exact ⟨trivial, shows_one _ _ (shows_tx _ (by decide +kernel))⟩
  · unfold Spec.HtmlSerial.Dom.kids tx' Plains
    exact ⟨by unfold Plain; trivial, by unfold Plains; trivial⟩

/-- The prefix of an attribute in a namespace the library has no name for is not written: `b:c` becomes `c`. -/
theorem C93_prefix_lost : ∃ (ct dst : CharT) (n : Model.HtmlSerial.Node) (D : Dom), Shows ct n D ∧
    (∀ k ∈ D.kids, k.kids = []) ∧
    Spec.HtmlSerial.serialize D = codes "<p b:c=\"d\"></p>" ∧
    Model.HtmlSerial.serialize ct dst true n = some (formOf dst (codes "<p c=\"d\"></p>")) := by
  refine ⟨.c32, .c32,
    .mk .fragment [.mk (.element ⟨atomOf .c32 .ns htmlNs, [], atomOf .c32 .tag (codes "p"),
      [⟨atomOf .c32 .ns (codes "a"), codes "b", atomOf .c32 .attr (codes "c"), codes "d"⟩]⟩) []],
    .mk .other [.mk (.element htmlNs [] (codes "p") [⟨codes "a", codes "b", codes "c", codes "d"⟩]) []], ?_, ?_,
    by decide +kernel, by decide +kernel⟩
  · unfold Shows
    refine ⟨trivial, shows_one _ _ ?_⟩
    unfold Shows
    exact ⟨⟨shown_atom _ _ _ scalar_html, ⟨by simp, rfl⟩, shown_atom _ _ _ (by decide +kernel),
      ⟨shown_atom _ _ _ (by decide +kernel), ⟨by decide +kernel, rfl⟩, shown_atom _ _ _ (by decide +kernel),
        ⟨by decide +kernel, rfl⟩⟩, trivial⟩, by unfold ShowsAll; trivial⟩
  · intro k hk
    simp only [Spec.HtmlSerial.Dom.kids, List.mem_singleton] at hk
    rw [hk]
    rfl

/-- C93. `to_string` writes what the standard says when no void element has children, no attribute has a prefix in a
namespace unknown to the library, and (with assertions) no text is a child of a root that is no element. -/
theorem C93_partial (ct dst : CharT) (nd : Bool) (n : Model.HtmlSerial.Node) (D : Dom) (h : Shows ct n D)
    (hp : Plains D.kids)
    (ht : nd = true ∨ (∃ ns pre name attrs, D.data = .element ns pre name attrs) ∨ ∀ k ∈ D.kids, ¬ k.data.isText) :
    Model.HtmlSerial.serialize ct dst nd n = some (formOf dst (Spec.HtmlSerial.serialize D)) := by
  rw [serialize_exact ct dst nd n D h, outs_writes _ _ hp]
  · rfl
  · intro k hk hx
    rcases ht with ht | ⟨ns, pre, name, attrs, ht⟩ | ht
    · exact .inl ht
    · exact .inr (by rw [ht]; rfl)
    · exact absurd hx (ht k hk)

/-- A paragraph with escaped text, a line break and raw text. -/
example : ∃ n, Shows .c32 n (el' "div" [el' "p" [tx' "a<b", el' "br" []], el' "style" [tx' "a>b"]]) ∧
    Plains (el' "div" [el' "p" [tx' "a<b", el' "br" []], el' "style" [tx' "a>b"]]).kids ∧
    Spec.HtmlSerial.serialize (el' "div" [el' "p" [tx' "a<b", el' "br" []], el' "style" [tx' "a>b"]]) =
      codes "<p>a&lt;b<br></p><style>a>b</style>" := by
  refine ⟨el "div" [el "p" [tx "a<b", el "br" []], el "style" [tx "a>b"]], ?_, ?_, by decide +kernel⟩
  · refine shows_el _ _ _ (by decide +kernel) ?_
    unfold ShowsAll
    refine ⟨shows_el _ _ _ (by decide +kernel) ?_, shows_one _ _ (shows_el _ _ _ (by decide +kernel)
      (shows_one _ _ (shows_tx _ (by decide +kernel))))⟩
    unfold ShowsAll
    exact ⟨shows_tx _ (by decide +kernel), shows_one _ _ (shows_el _ _ _ (by decide +kernel) (by unfold ShowsAll; trivial))⟩
  · simp [el', tx', Spec.HtmlSerial.Dom.kids, Plains, Plain, show codes "p" ∉ voidNames by decide +kernel,
      show codes "style" ∉ voidNames by decide +kernel, HtmlElement]

/-! C94. -/

/-- C94. Escaping never fails; what it writes has no no-break space, no quotation mark (in attribute mode), no `<` or `>`
(otherwise), and replacing the character references gives back the string. -/
theorem C94_escape (ct dst : CharT) (attr : Bool) (s : List Nat) (hs : ∀ c ∈ s, IsScalar c) :
    ∃ w, Model.HtmlSerial.escape ct dst attr (formOf ct s) = some (formOf dst w) ∧ Decodes w s ∧
      0xA0 ∉ w ∧ (attr = true → 0x22 ∉ w) ∧ (attr = false → 0x3C ∉ w ∧ 0x3E ∉ w) := by
  refine ⟨Spec.HtmlSerial.escape attr s, escape_eq ct dst attr _ s ⟨hs, rfl⟩, escape_decodes attr s, ?_, ?_, ?_⟩
  · intro h; exact (escape_no attr s _ h).1 rfl
  · intro ha h; exact (escape_no attr s _ h).2.1 ha rfl
  · intro ha
    exact ⟨fun h => ((escape_no attr s _ h).2.2 ha).1 rfl, fun h => ((escape_no attr s _ h).2.2 ha).2 rfl⟩

/-- C94. Replacing character references has one result at most. -/
theorem C94_decode (u s t : List Nat) (h : Decodes u s) (h' : Decodes u t) : s = t := decodes_det u s t h h'

example : (∀ c ∈ [0x26, 0xA0, 0x22, 0x3C, 0x1F600], IsScalar c) ∧
    Model.HtmlSerial.escape .c8 .c16 true (formOf .c8 [0x26, 0xA0, 0x22, 0x3C, 0x1F600]) =
      some (formOf .c16 (codes "&amp;&nbsp;&quot;<" ++ [0x1F600])) := by decide +kernel

example : Decodes (codes "&amp;lt;") (codes "&lt;") :=
  .amp (codes "lt;") (codes "lt;") (.char _ _ _ (by decide) (.char _ _ _ (by decide) (.char _ _ _ (by decide) .nil)))

/-! C95. -/

/-- C95. The output determines the tree: two trees below the same kind of root with the same output are the same, whatever
their texts and attribute values are. -/
theorem C95_injective (ct ct' dst : CharT) (nd nd' : Bool) (n n' : Model.HtmlSerial.Node) (root : Spec.HtmlSerial.Data)
    (k k' : List Dom) (h : Shows ct n (.mk root k)) (h' : Shows ct' n' (.mk root k')) (hv : ¬ HtmlElement voidNames root)
    (hr : Readables root k) (hr' : Readables root k')
    (ht : nd = true ∨ (∃ ns pre name attrs, root = .element ns pre name attrs) ∨ ∀ D ∈ k, ¬ D.data.isText)
    (ht' : nd' = true ∨ (∃ ns pre name attrs, root = .element ns pre name attrs) ∨ ∀ D ∈ k', ¬ D.data.isText)
    (he : Model.HtmlSerial.serialize ct dst nd n = Model.HtmlSerial.serialize ct' dst nd' n') : k = k' := by
  rw [C93_partial ct dst nd n _ h (readables_plains root k hr) ht,
    C93_partial ct' dst nd' n' _ h' (readables_plains root k' hr') ht'] at he
  injection he with he
  unfold Spec.HtmlSerial.serialize at he
  rw [if_neg (show ¬ HtmlElement voidNames (Dom.mk root k).data from hv),
    if_neg (show ¬ HtmlElement voidNames (Dom.mk root k').data from hv)] at he
  obtain ⟨d, l⟩ := n
  obtain ⟨d', l'⟩ := n'
  unfold Shows at h h'
  have he := form_inj dst _ _ (scalar_writes ct root l k h.2) (scalar_writes ct' root l' k' h'.2) he
  exact (writes_inj _ root k k' [] [] (le_refl _) hr hr' (.inl rfl) (.inl rfl) (by rw [List.append_nil, List.append_nil]; exact he)).1

/-- Text that looks like markup stays text. -/
example : ∃ n, Shows .c32 n (el' "div" [tx' "<br>", el' "script" [tx' "1<2"]]) ∧
    Readables (el' "div" []).data [tx' "<br>", el' "script" [tx' "1<2"]] := by
  refine ⟨el "div" [tx "<br>", el "script" [tx "1<2"]], ?_, ?_⟩
  · refine shows_el _ _ _ (by decide +kernel) ?_
    unfold ShowsAll
    exact ⟨shows_tx _ (by decide +kernel), shows_one _ _ (shows_el _ _ _ (by decide +kernel)
      (shows_one _ _ (shows_tx _ (by decide +kernel))))⟩
  · have c1 : codes "1<2" = [0x31, 0x3C, 0x32] := by decide +kernel
    have hd : ¬ HtmlElement rawNames (el' "div" []).data := by decide +kernel
    have o : ¬ Occurs (codes "</") (codes "1<2") := by
      rintro ⟨a, b, e⟩
      rw [slash_codes, c1] at e
      rcases a with _ | ⟨_, _ | ⟨_, _ | ⟨_, a⟩⟩⟩ <;> simp at e
    unfold Readables
    refine ⟨?_, ?_, by intro _ m hm; simp [el'] at hm; subst hm; exact fun x => x, fun x => absurd x hd⟩
    · unfold tx' Readable
      exact ⟨rfl, by decide +kernel, fun x => absurd x hd⟩
    · unfold Readables
      refine ⟨?_, by unfold Readables; trivial, fun x => x.elim, fun x => absurd x hd⟩
      unfold el' Readable
      refine ⟨rfl, rfl, ⟨⟨0x73, codes "cript", by decide +kernel, by decide⟩, by decide +kernel, by decide +kernel⟩, by simp,
        fun x => absurd x (by decide +kernel), ?_⟩
      unfold Readables
      refine ⟨?_, by unfold Readables; trivial, by simp, fun _ => ⟨trivial, rfl⟩⟩
      unfold tx' Readable
      exact ⟨rfl, by decide +kernel, fun _ => o⟩

end Verif.Props.HtmlSerial
