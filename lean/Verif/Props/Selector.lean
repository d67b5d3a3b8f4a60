import Verif.Proof.SelectorSound
import Verif.Proof.SelectorQuery
import Verif.Proof.SelectorText
/-
Properties of selectors (C102-C104): parsing, matching and queries. Trees are those that histories of calls build (`Props.Tree`); documents,
elements and other nodes are their values.
-/
namespace Verif.Props.Selector
open Verif.Model.CssTok (Token)
open Verif.Model.CssParse (Prim)
open Verif.Model.Coder (Ends)
open Verif.Model.Tree Verif.Model.Selector Verif.Spec Verif.Spec.Forest Verif.Spec.Selector
open Verif.Proof.Tree (Rep run_rep mkIt)

/-! ### C102: parsing -/

/-- The selectors of the standard with the declared prefixes. -/
def standard (uris : Uris) : Lang := ⟨fun p => (uris p).isSome = true, False⟩

/-- The selectors of the library: a hash need not be an identifier, anything may follow the value of an attribute, and the prefixes `*` and the
empty one may be written as identifiers. -/
def library (uris : Uris) : Lang := ⟨fun p => (uris p).isSome = true, True⟩

/-- No prefixes, as in the queries. -/
def noUris : Uris := fun _ => none

/-- Parsing gives the selectors that the standard gives, and nothing if the text is not a selector. -/
def C102_statement : Prop := ∀ uris s,
  (∀ xs, IsSelector (standard uris) s xs → parseList uris s = xs.map Complex.items) ∧
  ((¬ ∃ xs, IsSelector (standard uris) s xs) → parseList uris s = [])

/-- `p` with white space in front. -/
def spaced : List Prim := [.tok .whitespace, ident (txt "p")]

theorem compound_p (n : List Nat) (L : Lang) : Compound L [ident n] [.type none n] :=
  .mk (a := [ident n]) (xs := [.type none n]) (b := []) (ys := []) (c := []) (zs := []) (.yes (.name .no)) .nil .nil (by simp)

theorem C102_statement_false : ¬ C102_statement := by
  intro h
  have h1 := (h noUris spaced).1 [.single [.type none (txt "p")]]
    (.mk (w := [.tok .whitespace]) (s := [ident (txt "p")]) (w' := []) (by simp [Ws]) (.one (.single (compound_p _ _))) (by simp [Ws]))
  have h2 : parseList noUris spaced = [] := rfl
  rw [h2] at h1
  cases h1

/-- Every list of selectors of the standard, also with white space behind it, is parsed to what it says, if no `*` is followed by `||`. And what the
parser gives is a list of selectors of the library that is in front of the text. Missing: white space in front and `*||`, for which the parser
fails, and the refusal of texts that are not selectors as a whole. -/
theorem C102_partial (uris : Uris) :
    (∀ s xs w, IsList (standard uris) s xs → Ws w → (∀ a b, s ++ w ≠ a ++ delim 0x2A :: delim 0x7C :: delim 0x7C :: b) →
      parseList uris (s ++ w) = xs.map Complex.items) ∧
    (∀ s, parseList uris s ≠ [] →
      ∃ s' r xs, s = s' ++ r ∧ IsList (library uris) s' xs ∧ parseList uris s = xs.map Complex.items) := by
  constructor
  · intro s xs w h hw hn
    rw [parseList, Proof.Selector.select_complete h hw hn]
  · intro s h
    exact Proof.Selector.select_sound h

/-- `div > p.a, *|b[c^="d" i] ` -/
def long : List Prim := [ident (txt "div"), .tok .whitespace, delim 0x3E, .tok .whitespace, ident (txt "p"), delim 0x2E, ident (txt "a"), comma,
  .tok .whitespace, delim 0x2A, delim 0x7C, ident (txt "b"), .block 0x5B [ident (txt "c"), delim 0x5E, delim 0x3D, .tok (.string (txt "d")),
  .tok .whitespace, ident (txt "i")]]

def longSel : List Complex := [.step (.single [.type none (txt "div")]) 0x3E [.type none (txt "p"), .cls (txt "a")],
  .single [.type (some (txt "*")) (txt "b"), .attr none (txt "c") 0x5E (txt "d") 0x69]]

theorem long_list (L : Lang) : IsList L long longSel := by
  refine .cons (s := [ident (txt "div"), .tok .whitespace, delim 0x3E, .tok .whitespace, ident (txt "p"), delim 0x2E, ident (txt "a")]) (w := [])
    (w' := [.tok .whitespace]) (r := [delim 0x2A, delim 0x7C, ident (txt "b"), .block 0x5B [ident (txt "c"), delim 0x5E, delim 0x3D,
      .tok (.string (txt "d")), .tok .whitespace, ident (txt "i")]]) ?_ (by simp [Ws]) (by simp [Ws]) (.one (.single ?_))
  · refine .step (s := [ident (txt "div")]) (k := [.tok .whitespace, delim 0x3E, .tok .whitespace])
      (s' := [ident (txt "p"), delim 0x2E, ident (txt "a")]) (.single (compound_p _ _)) ?_ ?_
    · exact .sign (w := [.tok .whitespace]) (s := [delim 0x3E]) (w' := [.tok .whitespace]) (by simp [Ws]) (.one _ (by simp)) (by simp [Ws])
    · exact .mk (a := [ident (txt "p")]) (xs := [.type none (txt "p")]) (b := [delim 0x2E, ident (txt "a")]) (ys := [.cls (txt "a")]) (c := [])
        (zs := []) (.yes (.name .no)) (.cons (s := [delim 0x2E, ident (txt "a")]) (.cls _) .nil) .nil (by simp)
  · have hp : OptPrefix L [delim 0x2A, delim 0x7C] (some [0x2A]) := .yes .any
    refine .mk (a := [delim 0x2A, delim 0x7C, ident (txt "b")]) (xs := [.type (some [0x2A]) (txt "b")])
      (b := [.block 0x5B [ident (txt "c"), delim 0x5E, delim 0x3D, .tok (.string (txt "d")), .tok .whitespace, ident (txt "i")]])
      (ys := [.attr none (txt "c") 0x5E (txt "d") 0x69]) (c := []) (zs := []) (.yes (.name hp)) (.cons (s' := []) (SubSel.attr ?_) .nil) .nil (by simp)
    exact .modified (w := []) (s := []) (w' := []) (m := [delim 0x5E, delim 0x3D]) (w'' := []) (p := .tok (.string (txt "d")))
      (w₃ := [.tok .whitespace]) (q := ident (txt "i")) (w₄ := []) (j := []) (by simp [Ws]) .no (by simp [Ws]) (.op _ (by simp)) (by simp [Ws])
      (.string _) (by simp [Ws]) (.i _ (by decide)) (by simp [Ws]) (.inl rfl)

/-- The hypotheses of `C102_partial`. -/
example : IsList (standard noUris) long longSel ∧ Ws [.tok .whitespace] ∧
    (∀ a b, long ++ [.tok .whitespace] ≠ a ++ delim 0x2A :: delim 0x7C :: delim 0x7C :: b) ∧ parseList noUris long ≠ [] := by
  refine ⟨long_list _, by simp [Ws], ?_, ?_⟩
  · intro a b e
    have h : ∀ (n : Nat) (l : List Prim), l.length = n → l ≠ a ++ delim 0x2A :: delim 0x7C :: delim 0x7C :: b ∨
        ∃ i, l[i]? = some (delim 0x2A) ∧ l[i + 1]? = some (delim 0x7C) ∧ l[i + 2]? = some (delim 0x7C) := by
      intro n l _
      by_cases e : l = a ++ delim 0x2A :: delim 0x7C :: delim 0x7C :: b
      · refine .inr ⟨a.length, ?_, ?_, ?_⟩ <;> rw [e]
        · simp
        · rw [List.getElem?_append_right (by omega)]; simp
        · rw [List.getElem?_append_right (by omega)]; simp
      · exact .inl e
    rcases h _ _ rfl with h | ⟨i, h1, h2, h3⟩
    · exact h e
    · match i with
      | 0 => cases h1
      | 1 => cases h1
      | 2 => cases h1
      | 3 => cases h1
      | 4 => cases h1
      | 5 => cases h1
      | 6 => cases h1
      | 7 => cases h1
      | 8 => cases h1
      | 9 => cases h3
      | 10 => cases h1
      | 11 => cases h1
      | 12 => cases h1
      | 13 => cases h1
      | n + 14 => cases h1
  · have : parseList noUris long = longSel.map Complex.items := rfl
    rw [this]; simp [longSel]

theorem leftover {uris : Uris} {s : List Prim} (h : ∀ r, s ≠ .tok .whitespace :: r)
    (hn : ∀ a b, s ≠ a ++ delim 0x2A :: delim 0x7C :: delim 0x7C :: b) (hr : (selectorList uris s).2 ≠ []) :
    ¬ ∃ xs, IsSelector (standard uris) s xs := by
  rintro ⟨xs, hx⟩
  cases hx with
  | @mk w s xs w' hw hl hw' =>
    cases w with
    | cons p w =>
      have := hw p (by simp)
      subst this
      exact h _ rfl
    | nil =>
      rw [List.nil_append] at hr hn
      rw [Proof.Selector.select_complete hl hw' hn] at hr
      exact hr rfl

/-- Texts that are not selectors, but are taken as one: `p)`, `p >` and, without a declaration of the prefix, `p|b` are all taken as `p`. -/
theorem C102_leftover (x : List Prim) (hx : x ∈ [[.tok .closeParen], [delim 0x3E], [delim 0x7C, ident (txt "b")]]) :
    (¬ ∃ xs, IsSelector (standard noUris) (ident (txt "p") :: x) xs) ∧
    parseList noUris (ident (txt "p") :: x) = [[.comp [.type none (txt "p")]]] := by
  simp only [List.mem_cons, List.not_mem_nil, or_false] at hx
  have short : ∀ {s : List Prim}, s.length ≤ 3 → (∀ r, s ≠ delim 0x2A :: r) → ∀ a b, s ≠ a ++ delim 0x2A :: delim 0x7C :: delim 0x7C :: b := by
    rintro s hs h a b rfl
    cases a with
    | nil => exact h _ rfl
    | cons c a => simp at hs; omega
  rcases hx with rfl | rfl | rfl
  all_goals
    refine ⟨leftover (by intro r e; cases e) (short (by simp) (by intro r e; cases e)) ?_, rfl⟩
    intro e
    cases e

/-- `#1a`, which is not an identifier, and `[a=b c]` are taken, and `*||b` is not. -/
theorem C102_departures :
    parseList noUris [.tok (.hash (txt "1a") false)] = [[.comp [.id (txt "1a")]]] ∧
    parseList noUris [.block 0x5B [ident (txt "a"), delim 0x3D, ident (txt "b"), .tok .whitespace, ident (txt "c")]] =
      [[.comp [.attr none (txt "a") 0x3D (txt "b") 0]]] ∧
    parseList noUris [delim 0x2A, delim 0x7C, delim 0x7C, ident (txt "b")] = [] ∧
    IsSelector (standard noUris) [delim 0x2A, delim 0x7C, delim 0x7C, ident (txt "b")]
      [.step (.single [.universal none]) 0x7C [.type none (txt "b")]] := by
  refine ⟨rfl, rfl, rfl, .mk (w := []) (s := [delim 0x2A, delim 0x7C, delim 0x7C, ident (txt "b")]) (w' := []) (by simp [Ws]) (.one ?_) (by simp [Ws])⟩
  refine .step (s := [delim 0x2A]) (k := [delim 0x7C, delim 0x7C]) (s' := [ident (txt "b")]) (.single ?_) ?_ (compound_p _ _)
  · exact .mk (a := [delim 0x2A]) (xs := [.universal none]) (b := []) (ys := []) (c := []) (zs := []) (.yes (.star .no)) .nil .nil (by simp)
  · exact .sign (w := []) (s := [delim 0x7C, delim 0x7C]) (w' := []) (by simp [Ws]) .column (by simp [Ws])

/-- From the text: if the tokenizer reads it as in the standard, `parse_selector` gives what the component values say, and these are the
standard's if brackets nest. -/
theorem C102_text_partial (s : List Nat) (hT : ¬ [0x5C] <:+ CssInput.filter s) (hq : ∀ s', s' <:+ CssInput.filter s → ¬ CssTok.Quirk s') :
    ∃ (ts : List Token) (vs : List Prim), CssTok.Tokens (CssInput.filter s) (ts.map CssTok.tok) ∧
      CssParse.Values true (ts.map .tok) vs ∧ (CssParse.Matched (ts.map .tok) → CssParse.Values false (ts.map .tok) vs) ∧
      ∀ uris fuel, 2 * (CssInput.filter s).length + 2 ≤ fuel → parseSelector uris fuel s = .stop (parseList uris vs) :=
  Proof.SelectorText.parse_text rfl hT hq

example : (¬ [0x5C] <:+ CssInput.filter (txt "p > .b")) ∧ (∀ s', s' <:+ CssInput.filter (txt "p > .b") → ¬ CssTok.Quirk s') := by
  apply Proof.SelectorText.easy
  unfold CssTok.Digit
  decide +kernel

/-! ### C103: matching -/

/-- The context of a document of this type and mode: HTML (2) or XML (1), and no quirks in XML. -/
def KnownDoc (ty mo : Nat) : Prop := ty = 2 ∨ ty = 1 ∧ mo ≠ 2 ∧ mo ≠ 3

/-- What selectors refer to in such a document. -/
def docWith (ty mo : Nat) (uris : Uris) : Doc := ⟨ty = 2, mo = 2, uris⟩

theorem known {ty mo : Nat} {uris : Uris} (h : KnownDoc ty mo) : Proof.Selector.Known ⟨ty, mo, uris⟩ := by
  unfold Proof.Selector.Known Ctx.bad htmlType xmlType limitedQuirks quirksMode
  dsimp only
  rcases h with rfl | ⟨rfl, h1, h2⟩
  · simp
  · simp [h1, h2]

/-- The iterator of the node `x`. -/
def node (f : Forest Node) (x : Nat) : It := ⟨(f.parent? x).getD 0, x⟩

theorem node_mk {t : T Node} {f g l} (R : Rep t f g l) {x : Nat} (hx : x ∈ ids f) : node f x = mkIt t x := by
  rw [node, R.parent? hx]; rfl

/-- In every tree a list of selectors matches a node just when one of them represents it. -/
def C103_statement : Prop := ∀ (ops : List (Op Node)) (ty mo : Nat) (uris : Uris) (xs : List Complex) (x : Nat),
  Valid .nil ops → SafeAll .nil ops → KnownDoc ty mo → x ∈ ids (run ops) →
  ∃ t b, execAll T.empty ops = some t ∧ matchList t ⟨ty, mo, uris⟩ (xs.map Complex.items) (node (run ops) x) = some b ∧
    (b = true ↔ ∃ s ∈ xs, Selects (docWith ty mo uris) (run ops) s x)

/-- The HTML element of this name with these attributes. -/
def html (n : String) (as : List (String × String)) : Node :=
  .element (txt "http://www.w3.org/1999/xhtml") [] (txt n) (as.map fun a => ⟨[], [], txt a.1, txt a.2⟩)

/-- An HTML document: `<html><p class="a b"/><br/><p class="bar"/></html>` in the given mode. -/
def page (mo : Nat) : List (Op Node) := [.insert 0 0 (.document 2 mo), .insert 1 0 (html "html" []), .insert 2 0 (html "p" [("class", "a b")]),
  .insert 2 0 .other, .insert 2 0 (html "br" []), .insert 2 0 (html "p" [("class", "bar"), ("lang", "en")])]

theorem page_ok (mo : Nat) (h : mo = 1 ∨ mo = 2) : Valid .nil (page mo) ∧ SafeAll .nil (page mo) := by
  rcases h with rfl | rfl <;> decide +kernel

/-- Outside quirks mode, `.foo` matches `<p class="bar" lang="en">`. -/
theorem C103_statement_false : ¬ C103_statement := by
  intro h
  obtain ⟨t, b, h1, h2, h3⟩ := h (page 1) 2 1 noUris [.single [.cls (txt "foo")]] 6 (page_ok 1 (.inl rfl)).1 (page_ok 1 (.inl rfl)).2
    (.inl rfl) (by decide +kernel)
  have e : ((execAll T.empty (page 1)).bind fun t => matchList t ⟨2, 1, noUris⟩ [[.comp [.cls (txt "foo")]]] (node (run (page 1)) 6)) =
    some true := by decide +kernel
  rw [h1, Option.bind_some] at e
  rw [show [Complex.single [.cls (txt "foo")]].map Complex.items = [[.comp [.cls (txt "foo")]]] from rfl, e] at h2
  injection h2 with h2
  obtain ⟨s, hs, h4⟩ := h3.mp h2.symm
  rw [List.mem_singleton.mp hs] at h4
  obtain ⟨ns, pre, loc, as, hv, hf⟩ := h4
  have hv' : valueAt (run (page 1)) 6 = some (html "p" [("class", "bar"), ("lang", "en")]) := by decide +kernel
  rw [hv'] at hv
  obtain ⟨-, -, -, rfl⟩ := Node.element.inj (Option.some.inj hv)
  obtain ⟨a, ha, -, -, w, hw, h5⟩ := hf _ (List.mem_singleton.mpr rfl)
  have h6 : w = txt "bar" ∨ w = txt "en" := by
    simp only [List.map_cons, List.map_nil, List.mem_cons, List.not_mem_nil, or_false] at ha
    rcases ha with rfl | rfl
    · left
      rw [show Infra.words (txt "bar") = [txt "bar"] from by decide +kernel] at hw
      exact List.mem_singleton.mp hw
    · right
      rw [show Infra.words (txt "en") = [txt "en"] from by decide +kernel] at hw
      exact List.mem_singleton.mp hw
  rcases h5 with h5 | ⟨h5, -⟩
  · rcases h6 with rfl | rfl
    · exact absurd h5 (by decide +kernel)
    · exact absurd h5 (by decide +kernel)
  · exact absurd (show (1 : Nat) = 2 from h5) (by decide)

/-- For all trees with clean attributes and all lists of clean selectors, matching is defined and right. -/
theorem C103_partial (ops : List (Op Node)) (ty mo : Nat) (uris : Uris) (xs : List Complex) (x : Nat) (hv : Valid .nil ops) (hs : SafeAll .nil ops)
    (hd : KnownDoc ty mo) (hx : x ∈ ids (run ops)) (ht : CleanTree (docWith ty mo uris) (run ops))
    (hc : ∀ s ∈ xs, CleanSel (docWith ty mo uris) (run ops) s) :
    ∃ t b, execAll T.empty ops = some t ∧ matchList t ⟨ty, mo, uris⟩ (xs.map Complex.items) (node (run ops) x) = some b ∧
      (b = true ↔ ∃ s ∈ xs, Selects (docWith ty mo uris) (run ops) s x) := by
  obtain ⟨t, l, e, R, _⟩ := run_rep hv hs
  obtain ⟨b, h1, h2⟩ := Proof.Selector.matchList_spec R (known (uris := uris) hd) ht hc hx
  exact ⟨t, b, e, by rw [node_mk R hx]; exact h1, h2⟩

theorem page_clean (mo : Nat) (h : mo = 1 ∨ mo = 2) : CleanTree (docWith 2 mo noUris) (run (page mo)) := by
  intro x ns pre loc as hx
  have h2 : (run (page mo)).nodes.map (·.2) = [.document 2 mo, html "html" [], html "p" [("class", "a b")], .other, html "br" [],
    html "p" [("class", "bar"), ("lang", "en")]] := by rcases h with rfl | rfl <;> decide +kernel
  have h3 : Node.element ns pre loc as ∈ (run (page mo)).nodes.map (·.2) := by
    unfold valueAt at hx
    cases hf : find (run (page mo)) x with
    | none => rw [hf] at hx; simp at hx
    | some e =>
      rw [hf, Option.map_some, Option.some.injEq] at hx
      exact List.mem_map.mpr ⟨_, Proof.Selector.find_mem (v := e.1) (k := e.2) hf, hx⟩
  rw [h2] at h3
  have key : as ∈ [[], [⟨[], [], txt "class", txt "a b"⟩], [⟨[], [], txt "class", txt "bar"⟩, ⟨[], [], txt "lang", txt "en"⟩]] := by
    simp only [html, List.mem_cons, List.not_mem_nil, or_false, Node.element.injEq, reduceCtorEq, false_or] at h3 ⊢
    rcases h3 with h | h | h | h
    · exact .inl h.2.2.2
    · exact .inr (.inl h.2.2.2)
    · exact .inl h.2.2.2
    · exact .inr (.inr h.2.2.2)
  have hs : ¬ SameIf (docWith 2 mo noUris).html (txt "class") (txt "lang") := by
    rintro (h | ⟨-, h⟩) <;> revert h
    · decide +kernel
    · unfold Same; decide +kernel
  simp only [List.mem_cons, List.not_mem_nil, or_false] at key
  rcases key with rfl | rfl | rfl
  · exact ⟨.nil, by simp⟩
  · refine ⟨by simp, ?_⟩
    intro a ha
    rw [List.mem_singleton.mp ha]
    refine ⟨fun _ => by simp, ?_⟩
    decide +kernel
  · refine ⟨by simpa using hs, ?_⟩
    intro a ha
    simp only [List.mem_cons, List.not_mem_nil, or_false] at ha
    rcases ha with rfl | rfl
    · exact ⟨fun _ => by simp, by decide +kernel⟩
    · exact ⟨fun _ => by simp, by decide +kernel⟩

/-- The hypotheses of `C103_partial`: in quirks mode, `p + br ~ .BAR[lang^=e]`. -/
example : KnownDoc 2 2 ∧ 6 ∈ ids (run (page 2)) ∧ CleanTree (docWith 2 2 noUris) (run (page 2)) ∧ ∀ s ∈ [Complex.step (.step (.single [.type none (txt "p")]) 0x2B [.type none (txt "br")]) 0x7E
    [.cls (txt "BAR"), .attr none (txt "lang") 0x5E (txt "e") 0]], CleanSel (docWith 2 2 noUris) (run (page 2)) s := by
  refine ⟨.inl rfl, by decide +kernel, page_clean 2 (.inr rfl), ?_⟩
  intro s hs
  rw [List.mem_singleton.mp hs]
  simp [CleanSel, Clean, docWith, txt]

/-- Another case: `[lang|=e]`, which holds of no value of the page. -/
example : CleanSel (docWith 2 2 noUris) (run (page 2)) (.single [.attr none (txt "lang") 0x7C (txt "e") 0]) := by
  refine ⟨by simp, ?_⟩
  intro s hs
  rw [List.mem_singleton.mp hs]
  refine ⟨by simp, by simp, by simp, by simp, ?_⟩
  intro _ x ns pre loc as hx a ha _ hv
  have h2 : ∀ y ∈ (run (page 2)).nodes.map (·.2), match y with
      | .element _ _ _ as => ∀ a ∈ as, a.val ≠ txt "e"
      | _ => True := by
    rw [show (run (page 2)).nodes.map (·.2) = [.document 2 2, html "html" [], html "p" [("class", "a b")], .other, html "br" [],
      html "p" [("class", "bar"), ("lang", "en")]] from by decide +kernel]
    simp [html, txt]
  unfold valueAt at hx
  cases hf : find (run (page 2)) x with
  | none => rw [hf] at hx; simp at hx
  | some e =>
    rw [hf, Option.map_some, Option.some.injEq] at hx
    have := h2 _ (List.mem_map.mpr ⟨_, Proof.Selector.find_mem (v := e.1) (k := e.2) hf, hx⟩)
    exact this a ha (by simpa [HoldsMod, Holds] using hv)

/-- Outside quirks mode a class matches just when the element has a `class` attribute that is a single word without white space around it,
whatever the name is. -/
theorem C103_class (ty mo : Nat) (uris : Uris) (n ns pre loc : List Nat) (as : List Attr) (hd : KnownDoc ty mo) (hq : mo ≠ 2)
    (hs : ∀ a ∈ as, ∀ c ∈ a.val, IsScalar c) :
    ∃ b, matchCompound ⟨ty, mo, uris⟩ (.element ns pre loc as) [.cls n] = some b ∧
      (b = true ↔ ∃ a ∈ as, a.pre = [] ∧ SameIf (ty = 2) (txt "class") a.loc ∧ a.val ≠ [] ∧ ∀ c ∈ a.val, ¬ Infra.IsWs c) := by
  refine ⟨matchClass ⟨ty, mo, uris⟩ n as, ?_, Proof.Selector.matchClass_plain hq hs⟩
  have hb := (known (uris := uris) hd).2
  rw [matchCompound, matchSimple, if_neg (by rw [hb]; simp)]
  cases matchClass ⟨ty, mo, uris⟩ n as <;> rfl

example : KnownDoc 2 1 ∧ ∀ a ∈ [(⟨[], [], txt "class", txt "bar"⟩ : Attr)], ∀ c ∈ a.val, IsScalar c := ⟨.inl rfl, by decide +kernel⟩

/-- `*` without a prefix is undefined on every element: it reads a prefix that is not there. -/
theorem C103_star (c : Ctx) (ns pre loc : List Nat) (as : List Attr) (l : List Simple) :
    matchCompound c (.element ns pre loc as) (.universal none :: l) = none := by
  rw [matchCompound, show matchSimple c (.element ns pre loc as) (.universal none) = none from by unfold matchSimple; split <;> rfl]

/-- `[lang|=en]` does not match `lang="en"`, and `[lang^=""]` does. -/
theorem C103_departures (uris : Uris) :
    matchCompound ⟨2, 1, uris⟩ (html "p" [("lang", "en")]) [.attr none (txt "lang") 0x7C (txt "en") 0] = some false ∧
    Holds 0x7C (txt "en") (txt "en") ∧
    matchCompound ⟨2, 1, uris⟩ (html "p" [("lang", "en")]) [.attr none (txt "lang") 0x5E [] 0] = some true ∧
    ¬ Holds 0x5E [] (txt "en") := by
  refine ⟨rfl, .inr (.inr (.inr (.inl ⟨rfl, .inl rfl⟩))), rfl, ?_⟩
  simp [Holds]

/-! ### C104: queries -/

/-- For every node of a document the query finds what is represented by the selector. -/
def C104_statement : Prop := ∀ (ops : List (Op Node)) (xs : List Complex) (x ty mo : Nat), Valid .nil ops → SafeAll .nil ops → x ∈ ids (run ops) →
  InDoc (run ops) x ty mo → KnownDoc ty mo →
  ∃ t ys, execAll T.empty ops = some t ∧ queryAll t (xs.map Complex.items) (node (run ops) x) = some (ys.map (node (run ops))) ∧
    Answer (run ops) x (fun y => ∃ s ∈ xs, Selects (docWith ty mo noUris) (run ops) s y) ys

/-- An XML document `<a><b/></a>`. -/
def xml : List (Op Node) := [.insert 0 0 (.document 1 1), .insert 1 0 (.element [] [] (txt "a") []), .insert 2 0 (.element [] [] (txt "b") [])]

theorem nearest_of {f : Forest Node} {P : Nat → Prop} {x y : Nat} (hx : x ∈ ids f) (h1 : Upward f y x) (h2 : P y)
    (h3 : ∀ z ∈ ids f, P z → Upward f z y) : Nearest f P x y := by
  refine ⟨h1, h2, fun z hz hp => h3 z ?_ hp⟩
  rcases hz with rfl | hz
  · exact hx
  · exact Proof.Selector.descendants_node hz

theorem xml_doc : InDoc (run xml) 2 1 1 := by
  have h1 : valueAt (run xml) 1 = some (.document 1 1) := by decide +kernel
  refine ⟨1, nearest_of (by decide +kernel) (.inr (by decide +kernel)) ⟨1, 1, h1⟩ ?_, h1⟩
  rintro z hz ⟨ty, mo, e⟩
  have hi : z = 1 ∨ z = 2 ∨ z = 3 := by
    rw [show ids (run xml) = [1, 2, 3] from by decide +kernel] at hz
    simpa using hz
  rcases hi with rfl | rfl | rfl
  · exact .inl rfl
  · rw [show valueAt (run xml) 2 = some (.element [] [] (txt "a") []) from by decide +kernel] at e; simp at e
  · rw [show valueAt (run xml) 3 = some (.element [] [] (txt "b") []) from by decide +kernel] at e; simp at e

/-- In an XML document a query on an element is undefined. -/
theorem C104_statement_false : ¬ C104_statement := by
  intro h
  obtain ⟨t, ys, h1, h2, -⟩ := h xml [.single [.type none (txt "b")]] 2 1 1 (by decide +kernel) (by decide +kernel) (by decide +kernel)
    xml_doc (.inr ⟨rfl, by decide, by decide⟩)
  have e : ((execAll T.empty xml).bind fun t => queryAll t [[.comp [.type none (txt "b")]]] (node (run xml) 2)) = none := by decide +kernel
  rw [h1, Option.bind_some] at e
  rw [show [Complex.single [.type none (txt "b")]].map Complex.items = [[.comp [.type none (txt "b")]]] from rfl, e] at h2
  cases h2

theorem start_node {f : Forest Node} {x r : Nat} (hx : x ∈ ids f) (h : StartsAt f x r) : r ∈ ids f := by
  rcases h with ⟨_, rfl⟩ | ⟨_, h, _⟩
  · exact hx
  · rcases h with rfl | h
    · exact hx
    · exact Proof.Selector.descendants_node h

/-- A query on a document, or on a node with an HTML element `html` above it or at it, in a document: if matching is defined on all descendants of
the node, the result consists of those that match, in document order and without repetition; `query_selector` gives the first of them. If
matching is undefined on one of them, so is the query. -/
theorem C104_partial (ops : List (Op Node)) (sel : List (List Item)) (x r ty mo : Nat) (hv : Valid .nil ops) (hs : SafeAll .nil ops)
    (hx : x ∈ ids (run ops)) (hr : StartsAt (run ops) x r) (hd : InDoc (run ops) r ty mo) :
    ∃ t, execAll T.empty ops = some t ∧
      (∀ M : Nat → Bool, (∀ y ∈ descendants (run ops) x, matchList t ⟨ty, mo, noUris⟩ sel (node (run ops) y) = some (M y)) →
        queryAll t sel (node (run ops) x) = some (((descendants (run ops) x).filter M).map (node (run ops))) ∧
        ((descendants (run ops) x).filter M).Nodup ∧
        query t sel (node (run ops) x) = ((descendants (run ops) x).filter M).head?.map (node (run ops))) ∧
      (∀ y ∈ descendants (run ops) x, matchList t ⟨ty, mo, noUris⟩ sel (node (run ops) y) = none → queryAll t sel (node (run ops) x) = none) := by
  obtain ⟨t, l, e, R, _⟩ := run_rep hv hs
  have hrf : r ∈ ids (run ops) := start_node hx hr
  have hdoc := Proof.Selector.findDoc_known R hrf hd
  have hnode : ∀ y ∈ descendants (run ops) x, node (run ops) y = mkIt t y := fun y hy => node_mk R (Proof.Tree.descendants_sub _ x y hy)
  refine ⟨t, e, ?_, ?_⟩
  · intro M hM
    obtain ⟨ys, h1, h2, h3⟩ := Proof.Selector.queryAll_spec R hx hr (sel := sel) hdoc (Q := fun y => M y = true)
      (fun y hy => ⟨M y, by rw [← hnode y hy]; exact hM y hy, Iff.rfl⟩)
    have hnd : (descendants (run ops) x).Nodup := (Proof.Selector.descendants_sublist (run ops) x).nodup R.ndf
    have hys : ys = (descendants (run ops) x).filter M := by
      rw [← Proof.Selector.filter_sublist h2 hnd]
      apply List.filter_congr
      intro y hy
      have := h3 y
      simp only [hy, true_and] at this
      cases hm : M y <;> simp [this, hm]
    have e1 : queryAll t sel (node (run ops) x) = some (((descendants (run ops) x).filter M).map (node (run ops))) := by
      rw [node_mk R hx, h1, hys]
      congr 1
      apply List.map_congr_left
      intro y hy
      exact (hnode y (List.mem_of_mem_filter hy)).symm
    refine ⟨e1, hnd.filter _, ?_⟩
    rw [query, e1, Option.bind_some, List.head?_map]
  · intro y hy hm
    rw [node_mk R hx]
    exact Proof.Selector.queryAll_none R hx hr hdoc hy (by rw [← hnode y hy]; exact hm)

/-- The same with the meaning of selectors: for clean selectors and trees the query finds exactly the descendants that are represented, and
`query_selector` the first one; it is undefined if there is none. -/
theorem C104_meaning_partial (ops : List (Op Node)) (xs : List Complex) (x r ty mo : Nat) (hv : Valid .nil ops) (hs : SafeAll .nil ops)
    (hx : x ∈ ids (run ops)) (hr : StartsAt (run ops) x r) (hd : InDoc (run ops) r ty mo) (hk : KnownDoc ty mo)
    (ht : CleanTree (docWith ty mo noUris) (run ops)) (hc : ∀ s ∈ xs, CleanSel (docWith ty mo noUris) (run ops) s) :
    ∃ t ys, execAll T.empty ops = some t ∧ queryAll t (xs.map Complex.items) (node (run ops) x) = some (ys.map (node (run ops))) ∧
      Answer (run ops) x (fun y => ∃ s ∈ xs, Selects (docWith ty mo noUris) (run ops) s y) ys ∧
      query t (xs.map Complex.items) (node (run ops) x) = ys.head?.map (node (run ops)) := by
  obtain ⟨t, l, e, R, _⟩ := run_rep hv hs
  have hdoc := Proof.Selector.findDoc_known R (start_node hx hr) hd
  obtain ⟨ys, h1, h2⟩ := Proof.Selector.queryAll_spec R hx hr (sel := xs.map Complex.items) hdoc
    (fun y hy => Proof.Selector.matchList_spec R (known (uris := noUris) hk) ht hc (Proof.Tree.descendants_sub _ x y hy))
  have e1 : queryAll t (xs.map Complex.items) (node (run ops) x) = some (ys.map (node (run ops))) := by
    rw [node_mk R hx, h1]
    congr 1
    apply List.map_congr_left
    intro y hy
    exact (node_mk R (Proof.Tree.descendants_sub _ x y (h2.1.subset hy))).symm
  exact ⟨t, ys, e, e1, h2, by rw [query, e1, Option.bind_some, List.head?_map]⟩

theorem page_start (mo : Nat) (h : mo = 1 ∨ mo = 2) : StartsAt (run (page mo)) 1 1 ∧ InDoc (run (page mo)) 1 2 mo := by
  have h1 : valueAt (run (page mo)) 1 = some (.document 2 mo) := by rcases h with rfl | rfl <;> decide +kernel
  have hd : Document (run (page mo)) 1 := ⟨2, mo, h1⟩
  refine ⟨.inl ⟨hd, rfl⟩, 1, ⟨.inl rfl, hd, fun z hz _ => hz⟩, h1⟩

/-- The query from the document for `p + br ~ .BAR[lang^=e]`. -/
example : ∃ t, execAll T.empty (page 2) = some t ∧
    queryAll t [[.comp [.type none (txt "p")], .comb 0x2B, .comp [.type none (txt "br")], .comb 0x7E,
      .comp [.cls (txt "BAR"), .attr none (txt "lang") 0x5E (txt "e") 0]]] (node (run (page 2)) 1) = some [⟨2, 6⟩] := by
  have e : ((execAll T.empty (page 2)).bind fun t => queryAll t [[.comp [.type none (txt "p")], .comb 0x2B, .comp [.type none (txt "br")], .comb 0x7E,
    .comp [.cls (txt "BAR"), .attr none (txt "lang") 0x5E (txt "e") 0]]] (node (run (page 2)) 1)) = some [⟨2, 6⟩] := by decide +kernel
  cases h : execAll T.empty (page 2) with
  | none => rw [h] at e; simp at e
  | some t => rw [h] at e; exact ⟨t, rfl, e⟩

/-- A query on a node that is not a document and has no HTML element `html` above it or at it is undefined. -/
theorem C104_lost (ops : List (Op Node)) (sel : List (List Item)) (x : Nat) (hv : Valid .nil ops) (hs : SafeAll .nil ops)
    (hx : x ∈ ids (run ops)) (hd : ¬ Document (run ops) x) (hh : ∀ z, Upward (run ops) z x → ¬ HtmlElement (run ops) z) :
    ∃ t, execAll T.empty ops = some t ∧ queryAll t sel (node (run ops) x) = none := by
  obtain ⟨t, l, e, R, _⟩ := run_rep hv hs
  exact ⟨t, e, by rw [node_mk R hx]; exact Proof.Selector.queryAll_lost R hx hd hh sel⟩

example : 2 ∈ ids (run xml) ∧ ¬ Document (run xml) 2 ∧ ∀ z, Upward (run xml) z 2 → ¬ HtmlElement (run xml) z := by
  refine ⟨by decide +kernel, ?_, ?_⟩
  · rintro ⟨ty, mo, e⟩
    rw [show valueAt (run xml) 2 = some (.element [] [] (txt "a") []) from by decide +kernel] at e; simp at e
  · rintro z hz ⟨pre, as, e⟩
    have hi : z ∈ ids (run xml) := by
      rcases hz with rfl | hz
      · decide +kernel
      · exact Proof.Selector.descendants_node hz
    rw [show ids (run xml) = [1, 2, 3] from by decide +kernel] at hi
    simp only [List.mem_cons, List.not_mem_nil, or_false] at hi
    have hne : txt "http://www.w3.org/1999/xhtml" ≠ [] := by decide +kernel
    rcases hi with rfl | rfl | rfl
    · rw [show valueAt (run xml) 1 = some (.document 1 1) from by decide +kernel] at e; simp at e
    · rw [show valueAt (run xml) 2 = some (.element [] [] (txt "a") []) from by decide +kernel] at e
      exact hne (Node.element.inj (Option.some.inj e)).1.symm
    · rw [show valueAt (run xml) 3 = some (.element [] [] (txt "b") []) from by decide +kernel] at e
      exact hne (Node.element.inj (Option.some.inj e)).1.symm

/-- In a document a query with `*` in front is undefined as soon as the node has an element below it. -/
theorem C104_star (ops : List (Op Node)) (l : List Simple) (x r y ty mo : Nat) (hv : Valid .nil ops) (hs : SafeAll .nil ops)
    (hx : x ∈ ids (run ops)) (hr : StartsAt (run ops) x r) (hd : InDoc (run ops) r ty mo) (hy : y ∈ descendants (run ops) x)
    (he : Element (run ops) y) : ∃ t, execAll T.empty ops = some t ∧ queryAll t [[.comp (.universal none :: l)]] (node (run ops) x) = none := by
  obtain ⟨t, k, e, R, _⟩ := run_rep hv hs
  have hdoc := Proof.Selector.findDoc_known R (start_node hx hr) hd
  refine ⟨t, e, ?_⟩
  rw [node_mk R hx]
  refine Proof.Selector.queryAll_none R hx hr hdoc hy ?_
  obtain ⟨ns, pre, loc, as, hval⟩ := he
  obtain ⟨nd, h1, h2⟩ := Proof.Selector.deref_spec R (Proof.Tree.descendants_sub _ x y hy)
  rw [hval] at h1
  rw [matchList]
  split
  · rfl
  · rw [matchAny, List.reverse_singleton, matchItems, h2, Option.bind_some, ← Option.some.inj h1, C103_star]

example : 2 ∈ descendants (run (page 1)) 1 ∧ Element (run (page 1)) 2 :=
  ⟨by decide +kernel, txt "http://www.w3.org/1999/xhtml", [], txt "html", [], by decide +kernel⟩

/-- From the text to the nodes: a text that the tokenizer reads as in the standard, with brackets that nest, and whose component values are a list
of clean selectors (without `*||`), finds in a document the descendants that these selectors represent. -/
theorem C104_text_partial (ops : List (Op Node)) (s : List Nat) (x r ty mo : Nat) (hv : Valid .nil ops) (hs : SafeAll .nil ops)
    (hx : x ∈ ids (run ops)) (hr : StartsAt (run ops) x r) (hd : InDoc (run ops) r ty mo) (hk : KnownDoc ty mo)
    (ht : CleanTree (docWith ty mo noUris) (run ops))
    (hT : ¬ [0x5C] <:+ CssInput.filter s) (hq : ∀ s', s' <:+ CssInput.filter s → ¬ CssTok.Quirk s') :
    ∃ (ts : List Token) (vs : List Prim) (t : T Node), CssTok.Tokens (CssInput.filter s) (ts.map CssTok.tok) ∧
      CssParse.Values true (ts.map .tok) vs ∧ (CssParse.Matched (ts.map .tok) → CssParse.Values false (ts.map .tok) vs) ∧
      execAll T.empty ops = some t ∧
      ∀ a xs w, vs = a ++ w → IsList (standard noUris) a xs → Ws w → (∀ b c, vs ≠ b ++ delim 0x2A :: delim 0x7C :: delim 0x7C :: c) →
        (∀ s ∈ xs, CleanSel (docWith ty mo noUris) (run ops) s) →
        ∃ ys, Answer (run ops) x (fun y => ∃ s ∈ xs, Selects (docWith ty mo noUris) (run ops) s y) ys ∧
          ∀ fuel, 2 * (CssInput.filter s).length + 2 ≤ fuel → queryText t fuel s (node (run ops) x) = .stop (ys.map (node (run ops))) := by
  obtain ⟨ts, vs, h1, h2, h3, h4⟩ := Proof.SelectorText.parse_text rfl hT hq
  obtain ⟨t, _, e, _, _⟩ := run_rep hv hs
  refine ⟨ts, vs, t, h1, h2, h3, e, ?_⟩
  rintro a xs w rfl hl hw hn hc
  obtain ⟨t', ys, e', h5, h6, -⟩ := C104_meaning_partial ops xs x r ty mo hv hs hx hr hd hk ht hc
  rw [e] at e'
  obtain rfl := Option.some.inj e'
  refine ⟨ys, h6, ?_⟩
  intro fuel hf
  unfold queryText
  have h7 := h4 (fun _ => none) fuel hf
  rw [show parseList (fun _ => none) (a ++ w) = xs.map Complex.items from (C102_partial noUris).1 a xs w hl hw hn] at h7
  rw [h7]
  dsimp only
  rw [h5]

/-- `p + br` -/
example : (¬ [0x5C] <:+ CssInput.filter (txt "p + br")) ∧ (∀ s', s' <:+ CssInput.filter (txt "p + br") → ¬ CssTok.Quirk s') := by
  apply Proof.SelectorText.easy
  unfold CssTok.Digit
  decide +kernel

end Verif.Props.Selector
