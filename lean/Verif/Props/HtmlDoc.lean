import Verif.Proof.HtmlDoc8
import Verif.Proof.HtmlTreeText
import Verif.Props.NamedRefTok
/- Property C108: parsing what has been written for a document gives the document back. -/
namespace Verif.Props.HtmlDoc
open Verif.Model.HtmlTree Verif.Spec.HtmlDoc Verif.Spec.HtmlTokBridge Verif.Proof.HtmlDoc Verif.Proof.HtmlRoundTrip
open Verif.Spec.HtmlTree (document)
open Verif.Spec.HtmlTok (start)
open Verif.Spec.HtmlAtom (codes)
open Verif.Spec.HtmlSerial (Attr Shows HtmlElement htmlNs voidNames rawNames)
open Verif.Spec.HtmlRoundTrip
open Verif.Model.Unicode (CharT)
open Verif.Spec (IsScalar)

theorem plain_el {name : String} {attrs : List Attr} {ks : List Tree} (hn : codes name ∈ [codes "html", codes "head", codes "body"])
    (ha : Attrs attrs) (hk : PlainAll ks) : Plain (el name attrs ks) := by
  unfold el Plain
  refine ⟨rfl, ⟨?_, ?_⟩, ?_, fun a h => (ha.1 a h).1, ha.2, fun h => absurd h ?_, hk⟩
  · simp only [List.mem_cons, List.not_mem_nil, or_false] at hn
    rcases hn with h | h | h <;> rw [h] <;> exact ⟨_, _, rfl, by decide, by decide⟩
  · exact (by decide +kernel : ∀ n ∈ [codes "html", codes "head", codes "body"], ∀ c ∈ n, NameChar c) _ hn
  · exact (by decide +kernel : ∀ n ∈ [codes "html", codes "head", codes "body"], n ∉ rawNames) _ hn
  · exact (by decide +kernel : ∀ n ∈ [codes "html", codes "head", codes "body"], n ∉ voidNames) _ hn

theorem plain_one {D : Tree} (h : Plain D) : PlainAll [D] := by
  unfold PlainAll
  exact ⟨h, by unfold PlainAll; trivial⟩

/-- C108. For every document that needs no repair, `to_string` writes a text, and parsing that text (with the library's own table of
named character references) gives the same document: the same elements with the same attributes, texts, comments and document
type. `tbl` is the table of public identifiers, which only decides about quirks. -/
theorem C108 (tbl : List Nat → Bool) (ct : CharT) (nd : Bool) (n : Verif.Model.HtmlSerial.Node) (D : Tree) (hD : Shows ct n D)
    (hdoc : Document D) (hP : ∀ c ∈ Verif.Spec.HtmlSerial.serialize D, c < 2 ^ 32) :
    ∃ w s, Verif.Model.HtmlSerial.serialize ct .c32 nd n = some w ∧
      (∀ f, 24 * w.length + 39 ≤ f → parseEof tbl Verif.Model.NamedRef.find f w = some (.ok s)) ∧ document s.dom = D := by
  obtain ⟨dt, ha, hda, hk, ba, bk, rfl, hdt, h1, h2, h3, h4, h5⟩ := hdoc
  obtain ⟨s, s', r, he, hi⟩ := whole_run (tbl := tbl) dt ha hda ba hk bk
    (hdt.imp id fun ⟨name, h, _⟩ => ⟨name, h⟩) h1 h2 h3 h4 h5
  have hplain : PlainAll (dt ++ [el "html" ha [el "head" hda hk, el "body" ba bk]]) := by
    refine plainAll_append ?_ (plain_one (plain_el (by decide +kernel) h1 ?_))
    · rcases hdt with rfl | ⟨name, rfl, hn1, hn2⟩
      · unfold PlainAll; trivial
      · exact plain_one (by unfold Plain; exact ⟨hn1, hn2⟩)
    · exact plainAll_append (a := [_]) (plain_one (plain_el (by decide +kernel) h2 (headAll_plain hk h4)))
        (plain_one (plain_el (by decide +kernel) h3 (fitsAll_plain bk h5)))
  have hr : ¬ HtmlElement rawNames Spec.HtmlSerial.Data.other := fun h => by simp [HtmlElement] at h
  have hw : Verif.Spec.HtmlSerial.serialize (.mk .other (dt ++ [el "html" ha [el "head" hda hk, el "body" ba bk]])) =
      Verif.Spec.HtmlSerial.writes .other (dt ++ [el "html" ha [el "head" hda hk, el "body" ba bk]]) := by
    unfold Verif.Spec.HtmlSerial.serialize
    rw [if_neg fun h => by simp [HtmlElement, Spec.HtmlSerial.Dom.data] at h]
    rfl
  obtain ⟨y, p, hy⟩ := nodes_path (S := sink tbl) Verif.Proof.NamedRef.knows_names .other hr [] _ hplain (.ok init) r.calm
    (start (.ok init) (Verif.Spec.HtmlSerial.serialize (.mk .other (dt ++ [el "html" ha [el "head" hda hk, el "body" ba bk]]))))
    ⟨rfl, by simp [start, hw], rfl, rfl⟩
  obtain ⟨m, m1, m2⟩ := Verif.Proof.NamedRef.read_safe (sink tbl) (Verif.Proof.HtmlTree.switch_sink tbl) (.ok init) _ _ hP
    (by rw [hw]; exact writes_cr _ hr _ hplain) y p hy
  refine ⟨Verif.Spec.HtmlSerial.serialize (.mk .other (dt ++ [el "html" ha [el "head" hda hk, el "body" ba bk]])), s',
    HtmlSerial.C93_partial ct .c32 nd n _ hD (plain_serial _ hplain) (.inr (.inr ?_)), fun f hf => ?_, document_is hi⟩
  · intro k hk hx
    rcases List.mem_append.mp hk with hk | hk
    · rcases hdt with rfl | ⟨name, rfl, -⟩
      · cases hk
      · rw [List.mem_singleton.mp hk] at hx; exact hx
    · rw [List.mem_singleton.mp hk] at hx; exact hx
  · unfold parseEof
    rw [m1 f hf, Option.map_some, m2, r.fold]
    exact congrArg some he

/-! An example: a document type, a `meta`, and a body with text that has markup in it, formatting, a void element, a comment and a
table. -/

def attr1 (n v : String) : Attr := ⟨[], [], codes n, codes v⟩

def sampleD : Tree := .mk .other [.mk (.doctype (codes "html")) [], el "html" [attr1 "lang" "ja"] [
  el "head" [] [el "meta" [attr1 "charset" "utf-8"] []],
  el "body" [] [
    el "p" [attr1 "title" "\">&amp;"] [.mk (.text (codes "</p>&lt;")) [], el "b" [] [.mk (.text (codes "x")) []], el "br" [] []],
    .mk (.comment (codes "<p>")) [],
    el "table" [] [el "tbody" [] [el "tr" [] [el "td" [] [.mk (.text (codes "y")) []]]]]]]]

/-- The library's nodes for a tree. -/
def libAttr (a : Attr) : Verif.Model.HtmlSerial.Attr :=
  ⟨HtmlSerial.atomOf .c32 .ns a.ns, a.pre, HtmlSerial.atomOf .c32 .attr a.name, a.val⟩

def libData : Verif.Spec.HtmlSerial.Data → Verif.Model.HtmlSerial.Data
  | .element ns pre name attrs => .element ⟨HtmlSerial.atomOf .c32 .ns ns, pre, HtmlSerial.atomOf .c32 .tag name, attrs.map libAttr⟩
  | .text s => .text s
  | .pi a b => .pi a b
  | .comment s => .comment s
  | .doctype s => .doctype s
  | .other => .document

mutual
def lib : Tree → Verif.Model.HtmlSerial.Node
  | .mk d ks => .mk (libData d) (libs ks)

def libs : List Tree → List Verif.Model.HtmlSerial.Node
  | [] => []
  | n :: r => lib n :: libs r
end

/-- All characters are scalar values. -/
def scalar (s : List Nat) : Bool := s.all fun c => decide (c < 0xD800 ∨ (0xE000 ≤ c ∧ c ≤ 0x10FFFF))

def scalarData : Verif.Spec.HtmlSerial.Data → Bool
  | .element ns pre name attrs => scalar ns && scalar pre && scalar name &&
      attrs.all fun a => scalar a.ns && scalar a.pre && scalar a.name && scalar a.val
  | .text s => scalar s
  | .pi a b => scalar a && scalar b
  | .comment s => scalar s
  | .doctype s => scalar s
  | .other => true

mutual
def scalars : Tree → Bool
  | .mk d ks => scalarData d && scalarsAll ks

def scalarsAll : List Tree → Bool
  | [] => true
  | n :: r => scalars n && scalarsAll r
end

theorem scalar_all {s : List Nat} (h : scalar s = true) : ∀ c ∈ s, IsScalar c := fun c hc => by
  unfold scalar at h
  unfold IsScalar
  simpa using List.all_eq_true.mp h c hc

theorem str_of {s : List Nat} (h : scalar s = true) : Verif.Spec.HtmlSerial.Str .c32 s s := ⟨scalar_all h, rfl⟩

theorem shows_attrs : ∀ (l : List Attr), (l.all fun a => scalar a.ns && scalar a.pre && scalar a.name && scalar a.val) = true →
    Verif.Spec.HtmlSerial.ShowsAttrs .c32 (l.map libAttr) l
  | [], _ => trivial
  | a :: l, h => by
    rw [List.all_cons] at h
    simp only [Bool.and_eq_true] at h
    obtain ⟨⟨⟨⟨h1, h2⟩, h3⟩, h4⟩, h5⟩ := h
    exact ⟨⟨HtmlSerial.shown_atom _ _ _ (scalar_all h1), str_of h2, HtmlSerial.shown_atom _ _ _ (scalar_all h3), str_of h4⟩, shows_attrs l h5⟩

mutual
/-- The library can hold every tree of scalar values. -/
theorem shows_lib : ∀ (D : Tree), scalars D = true → Shows .c32 (lib D) D
  | .mk d ks, h => by
    unfold scalars at h
    rw [Bool.and_eq_true] at h
    unfold lib Shows
    refine ⟨?_, shows_libs ks h.2⟩
    have h := h.1
    cases d with
    | element ns pre name attrs =>
      simp only [scalarData, Bool.and_eq_true] at h
      exact ⟨HtmlSerial.shown_atom _ _ _ (scalar_all h.1.1.1), str_of h.1.1.2, HtmlSerial.shown_atom _ _ _ (scalar_all h.1.2), shows_attrs _ h.2⟩
    | text s => exact str_of h
    | pi a b => simp only [scalarData, Bool.and_eq_true] at h; exact ⟨str_of h.1, str_of h.2⟩
    | comment s => exact str_of h
    | doctype s => exact str_of h
    | other => trivial

theorem shows_libs : ∀ (ks : List Tree), scalarsAll ks = true → Verif.Spec.HtmlSerial.ShowsAll .c32 (libs ks) ks
  | [], _ => by unfold libs Verif.Spec.HtmlSerial.ShowsAll; trivial
  | D :: r, h => by
    unfold scalarsAll at h
    rw [Bool.and_eq_true] at h
    unfold libs Verif.Spec.HtmlSerial.ShowsAll
    exact ⟨shows_lib D h.1, shows_libs r h.2⟩
end

theorem attrs_one (n v : String) (h : PlainAttr (attr1 n v)) : Attrs [attr1 n v] :=
  ⟨fun a ha => by rw [List.mem_singleton.mp ha]; exact ⟨h, rfl⟩, by simp⟩

theorem attrs_nil : Attrs [] := ⟨by simp, by simp⟩

theorem fits_el {c : Ctx} {n : String} {attrs : List Attr} {ks : List Tree} (hn : TagName (codes n)) (ha : Attrs attrs)
    (h : Allowed c (codes n)) (hk : FitsAll (inside c (codes n)) false ks) : Fits c (el n attrs ks) := by
  unfold el Fits
  exact ⟨rfl, rfl, hn, ha, .inr ⟨h, hk⟩⟩

theorem fits_one {c : Ctx} {D : Tree} (h : Fits c D) : FitsAll c false [D] := by
  unfold FitsAll
  exact ⟨h, by simp, by unfold FitsAll; trivial⟩

theorem sample_fits : Document sampleD := by
  refine ⟨_, _, _, _, _, _, rfl, .inr ⟨_, rfl, by decide +kernel, by decide +kernel⟩, attrs_one _ _ (by unfold PlainAttr; decide +kernel), attrs_nil, attrs_nil, ?_, ?_⟩
  · unfold HeadFitsAll
    refine ⟨?_, by simp, by unfold HeadFitsAll; trivial⟩
    unfold el HeadFits
    exact ⟨rfl, rfl, by decide +kernel, attrs_one _ _ (by unfold PlainAttr; decide +kernel), rfl⟩
  · unfold FitsAll
    refine ⟨fits_el ⟨⟨_, _, rfl, by decide, by decide⟩, by decide +kernel⟩ (attrs_one _ _ (by unfold PlainAttr; decide +kernel))
      (.inl ⟨by decide +kernel, rfl⟩) ?_, by simp, ?_⟩
    · rw [show inside bodyCtx (codes "p") = ⟨.flow, codes "p", true, false, false, false⟩ by decide +kernel]
      unfold FitsAll
      refine ⟨by unfold Fits; exact ⟨rfl, by decide +kernel, by decide +kernel, by decide +kernel, rfl⟩, by simp, ?_⟩
      unfold FitsAll
      refine ⟨fits_el ⟨⟨_, _, rfl, by decide, by decide⟩, by decide +kernel⟩ attrs_nil (.inr (.inr (.inl (by decide +kernel)))) ?_, by simp [el, isText, Spec.HtmlSerial.Dom.data], ?_⟩
      · rw [show inside ⟨.flow, codes "p", true, false, false, false⟩ (codes "b") = ⟨.flow, codes "b", true, false, false, false⟩ by decide +kernel]
        exact fits_one (by unfold Fits; exact ⟨rfl, by decide +kernel, by decide +kernel, by decide +kernel, rfl⟩)
      · unfold FitsAll
        refine ⟨?_, by simp [el, isText, Spec.HtmlSerial.Dom.data], by unfold FitsAll; trivial⟩
        unfold el Fits
        exact ⟨rfl, rfl, ⟨⟨_, _, rfl, by decide, by decide⟩, by decide +kernel⟩, attrs_nil, .inl ⟨⟨by decide +kernel, fun h => absurd h (by decide +kernel)⟩, rfl⟩⟩
    · unfold FitsAll
      refine ⟨?_, by simp [isText, Spec.HtmlSerial.Dom.data], ?_⟩
      · unfold Fits
        refine ⟨⟨by decide +kernel, by decide +kernel, ?_, by decide +kernel, by decide +kernel, ?_⟩, rfl⟩
        · intro a b h
          have : 0x2D ∈ codes "<p>" := by rw [h]; simp
          exact absurd this (by decide +kernel)
        · intro r h
          have : 0x2D ∈ codes "<p>" := by rw [h]; simp
          exact absurd this (by decide +kernel)
      · unfold FitsAll
        refine ⟨fits_el ⟨⟨_, _, rfl, by decide, by decide⟩, by decide +kernel⟩ attrs_nil (.inr (.inr (.inr (.inr (.inr (.inr (.inr (.inr (.inr (.inl ⟨rfl, rfl⟩)))))))))) ?_,
          by simp [el, isText, Spec.HtmlSerial.Dom.data], by unfold FitsAll; trivial⟩
        rw [show inside bodyCtx (codes "table") = ⟨.table, codes "table", false, false, false, false⟩ by decide +kernel]
        refine fits_one (fits_el ⟨⟨_, _, rfl, by decide, by decide⟩, by decide +kernel⟩ attrs_nil (.inr (.inr (by decide +kernel))) ?_)
        rw [show inside ⟨.table, codes "table", false, false, false, false⟩ (codes "tbody") = ⟨.sect, codes "tbody", false, false, false, false⟩ by decide +kernel]
        refine fits_one (fits_el ⟨⟨_, _, rfl, by decide, by decide⟩, by decide +kernel⟩ attrs_nil rfl ?_)
        rw [show inside ⟨.sect, codes "tbody", false, false, false, false⟩ (codes "tr") = ⟨.row, codes "tr", false, false, false, false⟩ by decide +kernel]
        refine fits_one (fits_el ⟨⟨_, _, rfl, by decide, by decide⟩, by decide +kernel⟩ attrs_nil (show codes "td" ∈ cells by decide +kernel) ?_)
        rw [show inside ⟨.row, codes "tr", false, false, false, false⟩ (codes "td") = ⟨.flow, codes "td", false, false, false, false⟩ by decide +kernel]
        exact fits_one (by unfold Fits; exact ⟨rfl, by decide +kernel, by decide +kernel, by decide +kernel, rfl⟩)

example : ∃ w s, Verif.Model.HtmlSerial.serialize .c32 .c32 true (lib sampleD) = some w ∧
    (∀ f, 24 * w.length + 39 ≤ f → parseEof (fun _ => false) Verif.Model.NamedRef.find f w = some (.ok s)) ∧ document s.dom = sampleD :=
  C108 _ .c32 true (lib sampleD) sampleD (shows_lib _ (by decide +kernel)) sample_fits (by decide +kernel)

end Verif.Props.HtmlDoc
