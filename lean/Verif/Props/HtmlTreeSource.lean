import Verif.Props.HtmlTree
import Verif.Proof.HtmlTreeSource
import Verif.Proof.HtmlTreeView
import Verif.Proof.HtmlDoc2
/- Property C130: the elements and the attributes of a document come from the tags of the text. -/
namespace Verif.Props.HtmlTree
open Verif.Model.HtmlTree Verif.Proof.HtmlTree Verif.Spec.HtmlTree Verif.Spec.HtmlTokBridge Verif.Spec.HtmlWatch Verif.Spec.HtmlSource
open Verif.Model.HtmlTok (Find)
open Verif.Spec.HtmlAtom (codes)
open Verif.Spec.HtmlSerial (Data)
open Verif.Props.HtmlTok (noNames)
open Verif.Proof.HtmlTree.Source (Src Ok source_holds)

/-- The source that the tokens are. -/
def tags (toks : List Model.HtmlTok.Tok) : Src where
  tag t := NameFrom toks t.name
  attr n v := (n, v) ∈ given toks
  implied k hk := .inl (by revert k; decide +kernel)
  image h := by
    have e1 : (Tag.k .image).name = codes "image" := by decide +kernel
    have e2 : (Tag.k .img).name = codes "img" := by decide +kernel
    rw [e1] at h
    rw [e2]
    rcases h with h | h | h
    · exact absurd h (by decide +kernel)
    · exact .inr (.inr ⟨rfl, h⟩)
    · exact absurd h.1 (by decide +kernel)

theorem mem_given {toks : List Model.HtmlTok.Tok} {n : List Nat} {a : List (List Nat × List Nat)} {f : Bool} {x : List Nat × List Nat}
    (h : .startTag n a f ∈ toks) (hx : x ∈ a) : x ∈ given toks := by
  induction toks with
  | nil => cases h
  | cons t l ih =>
    rcases List.mem_cons.mp h with rfl | h
    · exact List.mem_append_left _ hx
    · have := ih h
      cases t <;> simp only [given] <;> first | exact this | exact List.mem_append_right _ this

theorem ok_tags (toks : List Model.HtmlTok.Tok) : ∀ t ∈ toks, Ok (tags toks) t := by
  intro t ht
  cases t with
  | startTag n a f =>
    refine ⟨?_, fun x hx => mem_given ht hx⟩
    show NameFrom toks (Tag.ofName n).name
    rw [Verif.Proof.HtmlDoc.ofName_name]
    exact .inr (.inl (Safe.mem_starts ht))
  | _ => trivial

theorem from_tags {toks : List Model.HtmlTok.Tok} {d : Dom} (h : Source.goodD (tags toks) d) : ∀ x ∈ nodes (document d), FromTags toks x := by
  intro x hx
  rcases mem_nodes_view d _ _ x hx with rfl | ⟨n, hn, rfl⟩
  · trivial
  · have := h n hn
    cases hk : n.kind with
    | elem ns t a =>
      rw [hk] at this
      refine ⟨this.1, fun y hy => ?_⟩
      obtain ⟨z, hz, rfl⟩ := List.mem_map.mp hy
      exact this.2 z hz
    | _ => trivial

/-- C130. Whatever the text is, and whether or not its end is announced: each element of the document that parsing it gives has the
name of a start tag of the text, or one of the names that the standard supplies, and each of its attributes has the name (up to the
adjustments of foreign content) and the value of an attribute of a start tag. -/
theorem C130 (tbl : List Nat → Bool) (P : Nat → Prop) (find : Find) (hF : FindOk P find) (h10 : P 10) (l : List Nat)
    (hl : ∀ c ∈ l, P c) (f : Nat) (hf : 24 * l.length + 39 ≤ f) :
    (∃ toks, tokens tbl find f l = some toks ∧ ∀ s, parse tbl find f l = some (.ok s) → ∀ x ∈ nodes (document s.dom), FromTags toks x) ∧
    ∃ toks, tokensEof tbl find f l = some toks ∧ ∀ s, parseEof tbl find f l = some (.ok s) → ∀ x ∈ nodes (document s.dom), FromTags toks x := by
  constructor
  · obtain ⟨r, toks, a1, -⟩ := parse_holds (Forest.shape_holds tbl) P find hF h10 l hl
    refine ⟨toks, (a1 f hf).2, fun s hs => ?_⟩
    obtain ⟨r', toks', b1, b2⟩ := parse_holds (source_holds (Z := tags toks) tbl) P find hF h10 l hl
    cases Option.some.inj ((a1 f hf).2.symm.trans (b1 f hf).2)
    exact from_tags (Source.i_good (b2 (ok_tags toks) s (Option.some.inj ((b1 f hf).1.symm.trans hs))))
  · obtain ⟨r, toks, a1, -⟩ := parseEof_holds (Forest.shape_holds tbl) P find hF h10 l hl
    refine ⟨toks, (a1 f hf).2, fun s hs => ?_⟩
    obtain ⟨r', toks', b1, b2⟩ := parseEof_holds (source_holds (Z := tags toks) tbl) P find hF h10 l hl
    cases Option.some.inj ((a1 f hf).2.symm.trans (b1 f hf).2)
    exact from_tags (Source.i_good (b2 (ok_tags toks) s (Option.some.inj ((b1 f hf).1.symm.trans hs))))

/-- Without a start tag of `script` there is no such element. -/
theorem C130_script (tbl : List Nat → Bool) (P : Nat → Prop) (find : Find) (hF : FindOk P find) (h10 : P 10) (l : List Nat)
    (hl : ∀ c ∈ l, P c) (f : Nat) (hf : 24 * l.length + 39 ≤ f) (toks : List Model.HtmlTok.Tok) (ht : tokensEof tbl find f l = some toks)
    (hn : codes "script" ∉ starts toks) (s : S) (hs : parseEof tbl find f l = some (.ok s)) :
    ∀ ns pre attrs, Data.element ns pre (codes "script") attrs ∉ nodes (document s.dom) := by
  intro ns pre attrs hx
  obtain ⟨-, toks', h1, h2⟩ := C130 tbl P find hF h10 l hl f hf
  cases Option.some.inj (ht.symm.trans h1)
  rcases (h2 s hs _ hx).1 with h | h | h
  · exact absurd h (by decide +kernel)
  · exact hn h
  · exact absurd h.1 (by decide +kernel)

/-- A text with adjusted attributes, an `image`, supplied elements, and no start tag of `script` but its name in other places. -/
example : let w := codes "<p title='<script>'>&lt;script&gt;</script><!--<script>--><table><td><image src=a><svg viewbox=b xlink:href=c><path pathlength=d>"
    (tokensEof (fun _ => false) noNames 5000 w).map (fun t => (starts t, given t)) =
      some (["p", "table", "td", "image", "svg", "path"].map codes,
        [("title", "<script>"), ("src", "a"), ("viewbox", "b"), ("xlink:href", "c"), ("pathlength", "d")].map fun x => (codes x.1, codes x.2)) ∧
    test (fun D => decide ((nodes D).filterMap (fun x => match x with | .element _ _ n a => some (n, a.map fun a => (a.name, a.val)) | _ => none) =
      [("html", []), ("head", []), ("body", []), ("p", [("title", "<script>")]), ("table", []), ("tbody", []), ("tr", []), ("td", []),
        ("img", [("src", "a")]), ("svg", [("viewbox", "b"), ("href", "c")]), ("path", [("pathLength", "d")])].map fun x =>
          (codes x.1, x.2.map fun y => (codes y.1, codes y.2)))) (parseEof (fun _ => false) noNames 5000 w) = true := by
  unfold parseEof tokensEof
  rw [sink_strict]
  decide +kernel

end Verif.Props.HtmlTree
