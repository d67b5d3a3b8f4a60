import Verif.Model.Selector
import Verif.Spec.Forest
import Verif.Spec.Infra
import Verif.Spec.Unicode
/-
Independent specification of selectors: the grammar of Selectors Level 4 (the version the sources cite) as relations on lists of component
values, and the meaning of selectors on ordered forests. Only the data types of the model are used (simple selectors, nodes).
-/
namespace Verif.Spec.Selector
open Verif.Spec Verif.Spec.Infra Verif.Model.CssTok Verif.Model.CssParse
open Verif.Model.Selector (Simple Item Node Attr)

/-- A complex selector: a compound selector, or a complex selector, a combinator and a compound selector. -/
inductive Complex
  | single (c : List Simple)
  | step (l : Complex) (k : Nat) (c : List Simple)

/-- The sequence of compound selectors and combinators. -/
def Complex.items : Complex → List Item
  | single c => [.comp c]
  | step l k c => l.items ++ [.comb k, .comp c]

/-! ### Grammar -/

/-- A language: the declared prefixes; `loose` languages also have forms that the standard does not allow. -/
structure Lang where
  declared : List Nat → Prop
  loose : Prop

abbrev delim (c : Nat) : Prim := .tok (.delim c)
abbrev ident (n : List Nat) : Prim := .tok (.ident n)
abbrev colon : Prim := .tok .colon
abbrev comma : Prim := .tok .comma

/-- White space. -/
def Ws (w : List Prim) : Prop := ∀ p ∈ w, p = .tok .whitespace

/-- `<ns-prefix>`. -/
inductive Prefix (L : Lang) : List Prim → List Nat → Prop
  | any : Prefix L [delim 0x2A, delim 0x7C] [0x2A]
  | none : Prefix L [delim 0x7C] []
  | name (p : List Nat) : L.declared p → Prefix L [ident p, delim 0x7C] p
  | odd (p : List Nat) : L.loose → p = [0x2A] ∨ p = [] → Prefix L [ident p, delim 0x7C] p

/-- `<ns-prefix>?`. -/
inductive OptPrefix (L : Lang) : List Prim → Option (List Nat) → Prop
  | no : OptPrefix L [] .none
  | yes {s p} : Prefix L s p → OptPrefix L s (some p)

/-- `<type-selector>`. -/
inductive TypeSel (L : Lang) : List Prim → Simple → Prop
  | name {s o n} : OptPrefix L s o → TypeSel L (s ++ [ident n]) (.type o n)
  | star {s o} : OptPrefix L s o → TypeSel L (s ++ [delim 0x2A]) (.universal o)

/-- `<attr-matcher>`. -/
inductive Matcher : List Prim → Nat → Prop
  | eq : Matcher [delim 0x3D] 0x3D
  | op (c : Nat) : c ∈ [0x7E, 0x7C, 0x5E, 0x24, 0x2A] → Matcher [delim c, delim 0x3D] c

/-- `<string-token> | <ident-token>`. -/
inductive Value : Prim → List Nat → Prop
  | string (v : List Nat) : Value (.tok (.string v)) v
  | ident (v : List Nat) : Value (ident v) v

/-- `<attr-modifier>`. -/
inductive Modifier : Prim → Nat → Prop
  | i (c : Nat) : c ∈ [0x69, 0x49] → Modifier (ident [c]) 0x69
  | s (c : Nat) : c ∈ [0x73, 0x53] → Modifier (ident [c]) 0x73

/-- What may follow the value of an attribute selector: nothing, or anything in a loose language. -/
def Tail (L : Lang) (s : List Prim) : Prop := s = [] ∨ L.loose

/-- The inside of an attribute selector; white space may be put between its parts. -/
inductive AttrBody (L : Lang) : List Prim → Simple → Prop
  | name {w s o n w'} : Ws w → OptPrefix L s o → Ws w' → AttrBody L (w ++ s ++ [ident n] ++ w') (.attr o n 0 [] 0)
  | value {w s o n w' m k w'' p v w₃ j} : Ws w → OptPrefix L s o → Ws w' → Matcher m k → Ws w'' → Value p v → Ws w₃ → Tail L j →
      AttrBody L (w ++ s ++ [ident n] ++ w' ++ m ++ w'' ++ [p] ++ w₃ ++ j) (.attr o n k v 0)
  | modified {w s o n w' m k w'' p v w₃ q i w₄ j} : Ws w → OptPrefix L s o → Ws w' → Matcher m k → Ws w'' → Value p v → Ws w₃ →
      Modifier q i → Ws w₄ → Tail L j →
      AttrBody L (w ++ s ++ [ident n] ++ w' ++ m ++ w'' ++ [p] ++ w₃ ++ [q] ++ w₄ ++ j) (.attr o n k v i)

/-- The names of the pseudo-elements that may be written with one colon. -/
def Legacy (n : List Nat) : Prop := n.map lower ∈ ["before", "after", "first-line", "first-letter"].map fun s => s.toList.map Char.toNat

/-- `<pseudo-class-selector>`. -/
inductive PseudoClass : List Prim → Simple → Prop
  | name (n : List Nat) : ¬ Legacy n → PseudoClass [colon, ident n] (.pclass n)
  | fn (n : List Nat) (a : List Prim) : PseudoClass [colon, .fn n a] (.pclassFn n a)

/-- `<pseudo-element-selector>`. -/
inductive PseudoElem : List Prim → Simple → Prop
  | name (n : List Nat) : PseudoElem [colon, colon, ident n] (.pelem n)
  | fn (n : List Nat) (a : List Prim) : PseudoElem [colon, colon, .fn n a] (.pelemFn n a)
  | legacy (n : List Nat) : Legacy n → PseudoElem [colon, ident n] (.pelem n)

/-- `<subclass-selector>`: a hash token must be an identifier. -/
inductive SubSel (L : Lang) : List Prim → Simple → Prop
  | id (v : List Nat) (b : Bool) : b = true ∨ L.loose → SubSel L [.tok (.hash v b)] (.id v)
  | cls (n : List Nat) : SubSel L [delim 0x2E, ident n] (.cls n)
  | attr {vs a} : AttrBody L vs a → SubSel L [.block 0x5B vs] a
  | pseudo {s x} : PseudoClass s x → SubSel L s x

/-- Any number of parts, without white space. -/
inductive Many (P : List Prim → Simple → Prop) : List Prim → List Simple → Prop
  | nil : Many P [] []
  | cons {s x s' xs} : P s x → Many P s' xs → Many P (s ++ s') (x :: xs)

/-- `[ <pseudo-element-selector> <pseudo-class-selector>* ]*`. -/
inductive Elems : List Prim → List Simple → Prop
  | nil : Elems [] []
  | cons {s x s' xs s'' ys} : PseudoElem s x → Many PseudoClass s' xs → Elems s'' ys → Elems (s ++ s' ++ s'') (x :: xs ++ ys)

/-- `<type-selector>?`. -/
inductive OptType (L : Lang) : List Prim → List Simple → Prop
  | no : OptType L [] []
  | yes {s x} : TypeSel L s x → OptType L s [x]

/-- `<compound-selector>`. -/
inductive Compound (L : Lang) : List Prim → List Simple → Prop
  | mk {a xs b ys c zs} : OptType L a xs → Many (SubSel L) b ys → Elems c zs → xs ++ ys ++ zs ≠ [] → Compound L (a ++ b ++ c) (xs ++ ys ++ zs)

/-- `<combinator>`. -/
inductive Sign : List Prim → Nat → Prop
  | one (c : Nat) : c ∈ [0x3E, 0x2B, 0x7E] → Sign [delim c] c
  | column : Sign [delim 0x7C, delim 0x7C] 0x7C

/-- A combinator with the white space around it, or white space for the descendant combinator. -/
inductive Comb : List Prim → Nat → Prop
  | descendant {w} : Ws w → w ≠ [] → Comb w 0x20
  | sign {w s k w'} : Ws w → Sign s k → Ws w' → Comb (w ++ s ++ w') k

/-- `<complex-selector>`. -/
inductive IsComplex (L : Lang) : List Prim → Complex → Prop
  | single {s c} : Compound L s c → IsComplex L s (.single c)
  | step {s l k n s' c} : IsComplex L s l → Comb k n → Compound L s' c → IsComplex L (s ++ k ++ s') (.step l n c)

/-- `<complex-selector-list>`: comma separated. -/
inductive IsList (L : Lang) : List Prim → List Complex → Prop
  | one {s x} : IsComplex L s x → IsList L s [x]
  | cons {s x w w' r xs} : IsComplex L s x → Ws w → Ws w' → IsList L r xs → IsList L (s ++ w ++ [comma] ++ w' ++ r) (x :: xs)

/-- `<selector-list>` with the white space around it. -/
inductive IsSelector (L : Lang) : List Prim → List Complex → Prop
  | mk {w s xs w'} : Ws w → IsList L s xs → Ws w' → IsSelector L (w ++ s ++ w') xs

/-! ### Meaning -/

/-- The document: whether it is an HTML document, whether it is in quirks mode, and the declared prefixes (the empty one is the default). -/
structure Doc where
  html : Prop
  quirks : Prop
  uris : List Nat → Option (List Nat)

/-- The same up to ASCII case. -/
def Same (s t : List Nat) : Prop := s.map lower = t.map lower

/-- The same, or the same up to ASCII case if `b`. -/
def SameIf (b : Prop) (s t : List Nat) : Prop := s = t ∨ b ∧ Same s t

/-- The namespace `ns` is meant by the prefix. -/
def Means (d : Doc) (p ns : List Nat) : Prop := p = [0x2A] ∨ p = [] ∧ ns = [] ∨ p ≠ [0x2A] ∧ p ≠ [] ∧ d.uris p = some ns

/-- The namespace of elements for an optional prefix. -/
def ElementNs (d : Doc) (o : Option (List Nat)) (ns : List Nat) : Prop :=
  match o with
  | none => ∀ u, d.uris [] = some u → ns = u
  | some p => Means d p ns

/-- The namespace of attributes for an optional prefix. -/
def AttrNs (d : Doc) (o : Option (List Nat)) (ns : List Nat) : Prop :=
  match o with
  | none => ns = []
  | some p => Means d p ns

/-- The relation of the value `v` of a selector to the value `s` of an attribute. -/
def Holds (m : Nat) (v s : List Nat) : Prop :=
  m = 0 ∨
  m = 0x3D ∧ s = v ∨
  m = 0x7E ∧ v ∈ words s ∨
  m = 0x7C ∧ (s = v ∨ v ++ [0x2D] <+: s) ∨
  m = 0x5E ∧ v ≠ [] ∧ v <+: s ∨
  m = 0x24 ∧ v ≠ [] ∧ v <:+ s ∨
  m = 0x2A ∧ v ≠ [] ∧ v <:+: s

/-- The same with the modifier. -/
def HoldsMod (m : Nat) (v : List Nat) (i : Nat) (s : List Nat) : Prop :=
  if i = 0x69 then Holds m (v.map lower) (s.map lower) else Holds m v s

/-- The text as code points. -/
def txt (s : String) : List Nat := s.toList.map Char.toNat

/-- The simple selector represents the element with this namespace, local name and these attributes; `root` says that it is the root of the
document. Other pseudo-classes have no meaning here; pseudo-elements are no elements. -/
def Fits (d : Doc) (root : Prop) (ns loc : List Nat) (as : List Attr) : Simple → Prop
  | .type o n => ElementNs d o ns ∧ SameIf d.html n loc
  | .universal o => ElementNs d o ns
  | .id v => ∃ a ∈ as, a.ns = [] ∧ SameIf d.html (txt "id") a.loc ∧ SameIf d.quirks v a.val
  | .cls n => ∃ a ∈ as, a.ns = [] ∧ SameIf d.html (txt "class") a.loc ∧ ∃ w ∈ words a.val, SameIf d.quirks n w
  | .attr o n m v i => ∃ a ∈ as, AttrNs d o a.ns ∧ SameIf d.html n a.loc ∧ HoldsMod m v i a.val
  | .pclass n => Same n (txt "root") ∧ root
  | _ => False

/-- The value of the node `x`. -/
def valueAt (f : Forest Node) (x : Nat) : Option Node := (f.find x).map (·.1)

/-- `x` is an element. -/
def Element (f : Forest Node) (x : Nat) : Prop := ∃ ns pre loc as, valueAt f x = some (.element ns pre loc as)

/-- `x` is the root of a document: an element that is no child of an element. -/
def Root (f : Forest Node) (x : Nat) : Prop := ∀ p, f.parent? x = some p → ¬ Element f p

/-- The compound selector represents the node `x`. -/
def FitsAll (d : Doc) (f : Forest Node) (c : List Simple) (x : Nat) : Prop :=
  ∃ ns pre loc as, valueAt f x = some (.element ns pre loc as) ∧ ∀ s ∈ c, Fits d (Root f x) ns loc as s

/-- `y` is a sibling before `x`, with `m` between them. -/
def Before (f : Forest Node) (y : Nat) (m : List Nat) (x : Nat) : Prop :=
  ∃ p A B, p ∈ f.ids ∧ f.kidsOf p = A ++ y :: (m ++ x :: B)

/-- The relation that a combinator stands for (the column combinator is not considered). -/
def Related (f : Forest Node) (k y x : Nat) : Prop :=
  k = 0x20 ∧ x ∈ f.descendants y ∨
  k = 0x3E ∧ x ∈ f.kidsOf y ∨
  k = 0x2B ∧ (∃ m, Before f y m x ∧ ∀ z ∈ m, ¬ Element f z) ∧ Element f y ∨
  k = 0x7E ∧ (∃ m, Before f y m x) ∧ Element f y

/-- The complex selector represents the node `x`. -/
def Selects (d : Doc) (f : Forest Node) : Complex → Nat → Prop
  | .single c, x => FitsAll d f c x
  | .step l k c, x => FitsAll d f c x ∧ ∃ y, Related f k y x ∧ Selects d f l y

/-! ### Queries -/

/-- `y` is `x` or an ancestor of `x`. -/
def Upward (f : Forest Node) (y x : Nat) : Prop := y = x ∨ x ∈ f.descendants y

/-- `y` is the nearest of `x` and its ancestors with `P`. -/
def Nearest (f : Forest Node) (P : Nat → Prop) (x y : Nat) : Prop := Upward f y x ∧ P y ∧ ∀ z, Upward f z x → P z → Upward f z y

/-- `x` is a document. -/
def Document (f : Forest Node) (x : Nat) : Prop := ∃ ty mo, valueAt f x = some (.document ty mo)

/-- `x` is an HTML element called `html`. -/
def HtmlElement (f : Forest Node) (x : Nat) : Prop :=
  ∃ pre as, valueAt f x = some (.element (txt "http://www.w3.org/1999/xhtml") pre (txt "html") as)

/-- The query on `x` starts at `r`: at `x` itself if it is a document, else at the nearest HTML element called `html`. -/
def StartsAt (f : Forest Node) (x r : Nat) : Prop := Document f x ∧ r = x ∨ ¬ Document f x ∧ Nearest f (HtmlElement f) x r

/-- The document of the node `r` is an HTML or XML document with this type and mode. -/
def InDoc (f : Forest Node) (r ty mo : Nat) : Prop := ∃ d, Nearest f (Document f) r d ∧ valueAt f d = some (.document ty mo)

/-- `ys` are the descendants of `x` with `P`, in document order. -/
def Answer (f : Forest Node) (x : Nat) (P : Nat → Prop) (ys : List Nat) : Prop :=
  ys.Sublist (f.descendants x) ∧ ∀ y, y ∈ ys ↔ y ∈ f.descendants x ∧ P y

/-! ### Conditions of the theorems about matching -/

/-- The root elements are the HTML elements called `html`. -/
def HtmlRoots (f : Forest Node) : Prop :=
  ∀ x ns pre loc as, valueAt f x = some (.element ns pre loc as) →
    ((ns = txt "http://www.w3.org/1999/xhtml" ∧ loc = txt "html") ↔ Root f x)

/-- Simple selectors: no `*` without a prefix, identifiers in lower case in quirks mode, classes in quirks mode only, no `|=` with the value of an attribute, no empty value for
`^=`, `$=` and `*=`, no value with the prefix `*`, no pseudo-class but `:root`. -/
def Clean (d : Doc) (f : Forest Node) : Simple → Prop
  | .type _ _ => True
  | .universal o => o ≠ none
  | .id v => d.quirks → v.map lower = v
  | .cls _ => d.quirks
  | .attr o n m v i => m ∈ [0, 0x3D, 0x7E, 0x5E, 0x24, 0x2A, 0x7C] ∧ (m = 0 → v = []) ∧ (m ∈ [0x5E, 0x24, 0x2A] → v ≠ []) ∧ (o = some [0x2A] → m = 0) ∧
    (m = 0x7C → ∀ x ns pre loc as, valueAt f x = some (.element ns pre loc as) → ∀ a ∈ as, SameIf d.html n a.loc → ¬ HoldsMod 0x3D v i a.val)
  | .pclass n => Same n (txt "root") ∧ HtmlRoots f
  | .pelem _ => True
  | .pelemFn _ _ => True
  | .pclassFn _ _ => False

/-- Complex selectors of clean simple selectors without the column combinator. -/
def CleanSel (d : Doc) (f : Forest Node) : Complex → Prop
  | .single c => c ≠ [] ∧ ∀ s ∈ c, Clean d f s
  | .step l k c => CleanSel d f l ∧ k ∈ [0x20, 0x3E, 0x2B, 0x7E] ∧ c ≠ [] ∧ ∀ s ∈ c, Clean d f s

/-- Attributes: no two of the same name, `id` and `class` have a prefix just when they have a namespace, and the values are Unicode text. -/
def CleanAttrs (d : Doc) (as : List Attr) : Prop :=
  as.Pairwise (fun a b => a.ns = b.ns → ¬ SameIf d.html a.loc b.loc) ∧
  ∀ a ∈ as, (SameIf d.html (txt "id") a.loc ∨ SameIf d.html (txt "class") a.loc → (a.ns = [] ↔ a.pre = [])) ∧ ∀ c ∈ a.val, IsScalar c

/-- All elements have such attributes. -/
def CleanTree (d : Doc) (f : Forest Node) : Prop := ∀ x ns pre loc as, valueAt f x = some (.element ns pre loc as) → CleanAttrs d as

end Verif.Spec.Selector
