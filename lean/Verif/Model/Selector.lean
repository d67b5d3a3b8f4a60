import Verif.Model.CssInput
import Verif.Model.CssParse
import Verif.Model.TreeIter
/-
Model of the selectors: lib/wwwc/selectors/grammar.cpp, include/wordring/wwwc/selectors/grammar.hpp, api.hpp,
pseudo_class_defs.hpp, tree_structural_pseudo_classes.hpp, include/wordring/whatwg/dom/infrastructure.hpp and
include/wordring/css/selector.hpp, with include/wordring/html/simple_node.hpp and simple_traits.hpp for the nodes.

Positions in the input are the rest of the input; a part that consumes nothing is `none` in `consume…` functions. Every part that
succeeds consumes a component value, so `operator bool` (grammar.cpp:24-27) is success. Strings are lists of code points: nodes
are taken with the strings that `encoding_cast<std::u32string>` makes of theirs. In the matching functions `none` is undefined behaviour
or a failing assertion. Nodes are those of the model of the tree container.
-/
namespace Verif.Model.Selector
open Verif.Model.CssInput (filterCodePoints)
open Verif.Model.Infra Verif.Model.Unicode Verif.Model.Coder Verif.Model.CssTok Verif.Model.CssParse Verif.Model.Tree

/-! ### Strings -/

/-- `to_ascii_lowercase` of `char32_t` strings (infra.hpp:252-262), which cannot fail. -/
def low (s : List Nat) : List Nat := s.map fun c => if isAsciiUpperAlpha c then c + 0x20 else c

/-- `is_ascii_case_insensitive_match` of `char32_t` strings (infra.hpp:280-296). -/
def ci (s t : List Nat) : Bool := low s == low t

/-- `split_on_ascii_whitespace` of `char32_t` strings (infra.hpp:498-513). -/
def pieces (s : List Nat) : List (List Nat) := (splitOnWhitespace .c32 s).getD []

/-- `s.find(x) != npos` of `std::u32string`. -/
def contains (x : List Nat) : List Nat → Bool
  | [] => x.isPrefixOf []
  | c :: s => x.isPrefixOf (c :: s) || contains x s

/-! ### Selectors -/

/-- `type_selector` (grammar.hpp:926-1016) with a name or, for `universal`, with `*`; `id_selector` (205-287); `class_selector` (306-395);
`attribute_selector` (611-867) with `m_matcher`, `m_value` and `m_modifier`; `pseudo_class_selector` (475-545) and
`pseudo_element_selector` (563-609) with an identifier or a function. Prefixes are the string of `ns_prefix` (127-152). -/
inductive Simple
  | type (pre : Option (List Nat)) (name : List Nat)
  | universal (pre : Option (List Nat))
  | id (value : List Nat)
  | cls (name : List Nat)
  | attr (pre : Option (List Nat)) (name : List Nat) (matcher : Nat) (value : List Nat) (modifier : Nat)
  | pclass (name : List Nat)
  | pclassFn (name : List Nat) (args : List Prim)
  | pelem (name : List Nat)
  | pelemFn (name : List Nat) (args : List Prim)

/-- The `value_type` of `complex_selector` (grammar.hpp:1136): a `compound_selector` or a `combinator`. -/
inductive Item
  | comp (c : List Simple)
  | comb (c : Nat)

/-- `m_namespace_uris` of the contexts (css_defs.hpp:24-30, 63). -/
abbrev Uris := List Nat → Option (List Nat)

/-! ### Parsing -/

/-- `skip_whitespace` (token.cpp:283-292). -/
def skipWs : List Prim → List Prim
  | .tok .whitespace :: s => skipWs s
  | s => s

/-- The value of `skip_whitespace`. -/
def startsWs : List Prim → Bool
  | .tok .whitespace :: _ => true
  | _ => false

/-- `combinator::consume` (grammar.cpp:48-75). -/
def combinator : List Prim → Option (Nat × List Prim)
  | .tok (.delim c) :: s =>
    if c = 0x3E ∨ c = 0x2B ∨ c = 0x7E then some (c, s)
    else if c = 0x7C then
      match s with
      | .tok (.delim d) :: s' => if d = 0x7C then some (0x7C, s') else none
      | _ => none
    else none
  | _ => none

/-- The first `switch` of `ns_prefix::consume` (grammar.cpp:96-113): the string and the rest. -/
def prefixName : List Prim → List Nat × List Prim
  | .tok (.ident v) :: s => (v, s)
  | .tok (.delim c) :: s => if c = 0x2A then ([0x2A], s) else ([], .tok (.delim c) :: s)
  | s => ([], s)

/-- `ns_prefix::consume` (grammar.cpp:92-125). -/
def nsPrefix (uris : Uris) (s : List Prim) : Option (List Nat × List Prim) :=
  match (prefixName s).2 with
  | .tok (.delim c) :: r =>
    if c = 0x7C then
      if (uris (prefixName s).1).isSome ∨ (prefixName s).1 = [0x2A] ∨ (prefixName s).1 = [] then some ((prefixName s).1, r)
      else none
    else none
  | _ => none

/-- The look ahead of `wq_name::consume` (grammar.cpp:150-152). -/
def nameAhead : List Prim → Bool
  | .tok (.ident _) :: _ => true
  | .tok (.delim c) :: _ => c == 0x2A
  | _ => false

/-- The last part of `wq_name::consume` (grammar.cpp:161-167). -/
def identAt (pre : Option (List Nat)) : List Prim → Option ((Option (List Nat) × List Nat) × List Prim)
  | .tok (.ident n) :: r => some ((pre, n), r)
  | _ => none

/-- `wq_name::consume` (grammar.cpp:142-168). -/
def wqName (uris : Uris) (s : List Prim) : Option ((Option (List Nat) × List Nat) × List Prim) :=
  match nsPrefix uris s with
  | some (p, r) => if nameAhead r then identAt (some p) r else identAt none s
  | none => identAt none s

/-- `id_selector::consume` (grammar.cpp:191-202). -/
def idSel : List Prim → Option (Simple × List Prim)
  | .tok (.hash v _) :: s => some (.id v, s)
  | _ => none

/-- `class_selector::consume` (grammar.cpp:219-234). -/
def classSel : List Prim → Option (Simple × List Prim)
  | .tok (.delim c) :: .tok (.ident n) :: s => if c = 0x2E then some (.cls n, s) else none
  | _ => none

/-- `attr_matcher::consume` (grammar.cpp:251-279). -/
def attrMatcher : List Prim → Option (Nat × List Prim)
  | .tok (.delim c) :: s =>
    if c = 0x3D then some (0x3D, s)
    else if c = 0x7E ∨ c = 0x7C ∨ c = 0x5E ∨ c = 0x24 ∨ c = 0x2A then
      match s with
      | .tok (.delim d) :: s' => if d = 0x3D then some (c, s') else none
      | _ => none
    else none
  | _ => none

/-- `attr_modifier::consume` (grammar.cpp:296-314) and its use (530-537): 0 if there is none. -/
def attrModifier : List Prim → Nat
  | .tok (.ident s) :: _ => if s = [0x69] ∨ s = [0x49] then 0x69 else if s = [0x73] ∨ s = [0x53] then 0x73 else 0
  | _ => 0

/-- The part of `attribute_selector::consume` behind the matcher (grammar.cpp:512-539): the value and the modifier. -/
def attrValue : List Prim → Option (List Nat × Nat)
  | .tok (.string v) :: s => some (v, attrModifier (skipWs s))
  | .tok (.ident v) :: s => some (v, attrModifier (skipWs s))
  | _ => none

/-- `attribute_selector::consume` within the block (grammar.cpp:499-541). -/
def attrBody (uris : Uris) (vs : List Prim) : Option Simple :=
  match wqName uris (skipWs vs) with
  | none => none
  | some ((p, n), r) =>
    match attrMatcher (skipWs r) with
    | some (m, r') =>
      match attrValue (skipWs r') with
      | some (v, i) => some (.attr p n m v i)
      | none => none
    | none => if (skipWs r).isEmpty then some (.attr p n 0 [] 0) else none

/-- `attribute_selector::consume` (grammar.cpp:489-544). -/
def attrSel (uris : Uris) : List Prim → Option (Simple × List Prim)
  | .block c vs :: s => if c = 0x5B then (attrBody uris vs).map fun a => (a, s) else none
  | _ => none

/-- `before`, `after`, `first-line` and `first-letter` (grammar.cpp:342-348 and 444-450). -/
def legacy : List (List Nat) :=
  [[0x62, 0x65, 0x66, 0x6F, 0x72, 0x65], [0x61, 0x66, 0x74, 0x65, 0x72],
    [0x66, 0x69, 0x72, 0x73, 0x74, 0x2D, 0x6C, 0x69, 0x6E, 0x65],
    [0x66, 0x69, 0x72, 0x73, 0x74, 0x2D, 0x6C, 0x65, 0x74, 0x74, 0x65, 0x72]]

/-- `pseudo_class_selector::consume` (grammar.cpp:331-372). -/
def pseudoClass : List Prim → Option (Simple × List Prim)
  | .tok .colon :: .tok (.ident n) :: s => if low n ∈ legacy then none else some (.pclass n, s)
  | .tok .colon :: .fn n vs :: s => some (.pclassFn n vs, s)
  | _ => none

/-- The `pseudo_element_selector` made of a `pseudo_class_selector` (grammar.cpp:465-469). -/
def toElem : Simple → Simple
  | .pclass n => .pelem n
  | .pclassFn n vs => .pelemFn n vs
  | x => x

/-- `if (in.current().type() == ColonToken) in.consume()` (grammar.cpp:439). -/
def skipColon : List Prim → List Prim
  | .tok .colon :: s => s
  | s => s

/-- The last part of `pseudo_element_selector::consume` (grammar.cpp:441-459). -/
def legacyElem : List Prim → Option (Simple × List Prim)
  | .tok (.ident n) :: s => if low n ∈ legacy then some (.pelem n, s) else none
  | _ => none

/-- `pseudo_element_selector::consume` (grammar.cpp:423-463). -/
def pseudoElem : List Prim → Option (Simple × List Prim)
  | .tok .colon :: s =>
    match pseudoClass s with
    | some (x, r) => some (toElem x, r)
    | none => legacyElem (skipColon s)
  | _ => none

/-- `subclass_selector::consume` (grammar.cpp:584-601). -/
def subclass (uris : Uris) (s : List Prim) : Option (Simple × List Prim) :=
  (idSel s).or ((classSel s).or ((attrSel uris s).or (pseudoClass s)))

/-- The `*` of `type_selector::consume` (grammar.cpp:633-639). -/
def starAt (pre : Option (List Nat)) : List Prim → Option (Simple × List Prim)
  | .tok (.delim c) :: r => if c = 0x2A then some (.universal pre, r) else none
  | _ => none

/-- `type_selector::consume` (grammar.cpp:618-640). -/
def typeSel (uris : Uris) (s : List Prim) : Option (Simple × List Prim) :=
  match wqName uris s with
  | some ((p, n), r) => some (.type p n, r)
  | none =>
    match nsPrefix uris s with
    | some (p, r) => starAt (some p) r
    | none => starAt none s

/-- A loop `while (true)` that pushes what `f` consumes (grammar.cpp:699-708 and 720-729); `fuel` bounds the turns. -/
def many (f : List Prim → Option (Simple × List Prim)) : Nat → List Prim → List Simple × List Prim
  | 0, s => ([], s)
  | fuel + 1, s =>
    match f s with
    | none => ([], s)
    | some (x, r) => (x :: (many f fuel r).1, (many f fuel r).2)

/-- The loop over the pseudo-elements (grammar.cpp:710-730). -/
def elems : Nat → List Prim → List Simple × List Prim
  | 0, s => ([], s)
  | fuel + 1, s =>
    match pseudoElem s with
    | none => ([], s)
    | some (x, r) =>
      let q := many pseudoClass r.length r
      (x :: (q.1 ++ (elems fuel q.2).1), (elems fuel q.2).2)

/-- The first part of `compound_selector::consume` (grammar.cpp:692-697). -/
def typeOpt (uris : Uris) (s : List Prim) : List Simple × List Prim :=
  match typeSel uris s with
  | some (x, r) => ([x], r)
  | none => ([], s)

/-- `compound_selector::consume` (grammar.cpp:686-738). -/
def compound (uris : Uris) (s : List Prim) : Option (List Simple × List Prim) :=
  let a := typeOpt uris s
  let b := many (subclass uris) a.2.length a.2
  let c := elems b.2.length b.2
  if (a.1 ++ b.1 ++ c.1).isEmpty then none else some (a.1 ++ b.1 ++ c.1, c.2)

/-- The loop of `complex_selector::consume` (grammar.cpp:771-788); the result is the rest behind the last compound selector. -/
def complexLoop (uris : Uris) : Nat → List Prim → List Item × List Prim
  | 0, s => ([], s)
  | fuel + 1, s =>
    if s.isEmpty then ([], s)
    else
      let c := combinator (skipWs s)
      if startsWs s = false ∧ c = none then ([], s)
      else
        let r := match c with
          | some (_, r) => r
          | none => skipWs s
        match compound uris (skipWs r) with
        | none => ([], s)
        | some (x, r') =>
          let k := match c with
            | some (k, _) => k
            | none => 0x20
          (.comb k :: .comp x :: (complexLoop uris fuel r').1, (complexLoop uris fuel r').2)

/-- `complex_selector::consume` (grammar.cpp:755-794). -/
def complex (uris : Uris) (s : List Prim) : Option (List Item × List Prim) :=
  match compound uris s with
  | none => none
  | some (x, r) => some (.comp x :: (complexLoop uris r.length r).1, (complexLoop uris r.length r).2)

/-- The loop of `complex_selector_list::consume` (grammar.cpp:991-1003); `none` is the `return` at 1000. -/
def listLoop (uris : Uris) : Nat → List Prim → Option (List (List Item) × List Prim)
  | fuel, s =>
    match skipWs s with
    | .tok .comma :: r =>
      match fuel with
      | 0 => none
      | fuel + 1 =>
        match complex uris (skipWs r) with
        | none => none
        | some (x, r') =>
          match listLoop uris fuel r' with
          | none => none
          | some (xs, q) => some (x :: xs, q)
    | q => some ([], q)

/-- `complex_selector_list::consume` and `selector_list::consume` (grammar.cpp:980-1006, 1023-1031): the selectors, none at all if there is
an error, and the rest. -/
def selectorList (uris : Uris) (s : List Prim) : List (List Item) × List Prim :=
  match complex uris s with
  | none => ([], s)
  | some (x, r) =>
    match listLoop uris r.length r with
    | none => ([], s)
    | some (xs, q) => (x :: xs, q)

/-- `parse_grammar` of component values (css_syntax/parsing.hpp:190-202): the rest is ignored. -/
def parseList (uris : Uris) (s : List Prim) : List (List Item) := (selectorList uris s).1

/-- `parse_selector` (api.hpp:39-43 and parsing.hpp:204-209), with `normalize_into_token_stream` of a string (parsing.hpp:139-148). -/
def parseSelector (uris : Uris) (fuel : Nat) (s : List Nat) : Ends (List (List Item)) :=
  match filterCodePoints s with
  | none => .ub
  | some w =>
    match tokenize fuel w with
    | .stop ts =>
      match parseValues fuel (ts.map .tok) with
      | .stop vs => .stop (parseList uris vs)
      | .ub => .ub
      | .more => .more
    | .ub => .ub
    | .more => .more

/-! ### Nodes -/

/-- `simple_attr` (simple_node.hpp): namespace URI, prefix, local name and value. -/
structure Attr where
  ns : List Nat
  pre : List Nat
  loc : List Nat
  val : List Nat
deriving DecidableEq, Repr

/-- `simple_node` (simple_node.hpp): elements, documents with `document_type_name` and `document_mode_name`, and other nodes. -/
inductive Node
  | element (ns pre loc : List Nat) (attrs : List Attr)
  | document (type mode : Nat)
  | other
deriving DecidableEq, Repr

instance : Inhabited Node := ⟨.other⟩

/-- `simple_attr::qualified_name`. -/
def Attr.qname (a : Attr) : List Nat := if a.pre.isEmpty then a.loc else a.pre ++ 0x3A :: a.loc

/-- `document_type_name::Xml`, `Html` and `document_mode_name::NoQuirks`, `Quirks`, `LimitedQuirks` (whatwg/html/html_defs.hpp:22-33). -/
def xmlType : Nat := 1
def htmlType : Nat := 2
def noQuirks : Nat := 1
def quirksMode : Nat := 2
def limitedQuirks : Nat := 3

/-- `http://www.w3.org/1999/xhtml`, the URI of `ns_name::HTML`. -/
def htmlNs : List Nat :=
  [0x68, 0x74, 0x74, 0x70, 0x3A, 0x2F, 0x2F, 0x77, 0x77, 0x77, 0x2E, 0x77, 0x33, 0x2E, 0x6F, 0x72, 0x67, 0x2F, 0x31, 0x39, 0x39, 0x39,
    0x2F, 0x78, 0x68, 0x74, 0x6D, 0x6C]

/-- `html`, the name of `tag_name::Html`. -/
def htmlName : List Nat := [0x68, 0x74, 0x6D, 0x6C]

/-- `is_element`. -/
def Node.isElement : Node → Bool
  | .element .. => true
  | _ => false

/-- `is_document`. -/
def Node.isDocument : Node → Bool
  | .document .. => true
  | _ => false

/-- `is_root` (simple_traits.hpp, "CSS Support"); the names of the atoms are compared as strings. -/
def Node.isRoot : Node → Bool
  | .element ns _ loc _ => ns == htmlNs && loc == htmlName
  | _ => false

/-! ### Matching -/

/-- `match_context` (css_defs.hpp:36-84); the scope is not used by any selector. -/
structure Ctx where
  type : Nat
  mode : Nat
  uris : Uris

/-- The assertion at the head of the matching functions. -/
def Ctx.bad (c : Ctx) : Bool := c.type == xmlType && (c.mode == limitedQuirks || c.mode == quirksMode)

/-- The name of an attribute in the loops of `id_selector` and `class_selector` (grammar.hpp:260-266 and 349-355). -/
def foldName (c : Ctx) (a : Attr) : List Nat := if c.type = htmlType then low a.qname else a.qname

/-- The value of an attribute in these loops (grammar.hpp:270-276 and 362-368). -/
def foldValue (c : Ctx) (a : Attr) : List Nat := if c.mode = quirksMode then low a.val else a.val

def idName : List Nat := [0x69, 0x64]
def className : List Nat := [0x63, 0x6C, 0x61, 0x73, 0x73]

/-- The loop of `id_selector::match` (grammar.hpp:256-280). -/
def matchId (c : Ctx) (v : List Nat) : List Attr → Bool
  | [] => false
  | a :: as => if foldName c a = idName ∧ foldValue c a = v then true else matchId c v as

/-- The comparison of a class `s` of the value `val` with the name (grammar.hpp:374-376). -/
def hitClass (c : Ctx) (n val s : List Nat) : Bool := if c.mode = quirksMode then ci s n else s == val

/-- The loop of `class_selector::match` (grammar.hpp:345-383). -/
def matchClass (c : Ctx) (n : List Nat) : List Attr → Bool
  | [] => false
  | a :: as =>
    if foldName c a ≠ className then matchClass c n as
    else if (pieces (foldValue c a)).any (hitClass c n (foldValue c a)) then true
    else matchClass c n as

/-- The test of the prefix in `attribute_selector::match` (grammar.hpp:704-737). -/
def nsAttr (c : Ctx) (pre : Option (List Nat)) (ns : List Nat) : Bool :=
  match pre with
  | some p =>
    if p = [0x2A] then true
    else if p = [] then ns.isEmpty
    else c.uris p == some ns
  | none => ns.isEmpty

/-- The test of the name (grammar.hpp:739-750). -/
def nameAttr (c : Ctx) (n loc : List Nat) : Bool := if c.type = xmlType then n == loc else ci n loc

/-- The loop of `attribute_selector::match` (grammar.hpp:700-754): the attribute where it stops. -/
def findAttr (c : Ctx) (pre : Option (List Nat)) (n : List Nat) : List Attr → Option Attr
  | [] => none
  | a :: as => if nsAttr c pre a.ns && nameAttr c n a.loc then some a else findAttr c pre n as

/-- Comparison as the modifier says. -/
def eqMod (i : Bool) (s t : List Nat) : Bool := if i then ci s t else s == t

/-- The `switch` of `attribute_selector::match` (grammar.hpp:757-851); `none` is the assertion at 760. -/
def matchValue (m : Nat) (v : List Nat) (modifier : Nat) (s : List Nat) : Option Bool :=
  let i := modifier == 0x69
  if m = 0 then (if v.isEmpty then some true else none)
  else if m = 0x3D then some (eqMod i v s)
  else if m = 0x7E then some ((pieces s).any fun t => (i && ci v t) || v == t)
  else if m = 0x7C then some (decide (v.length < s.length) && eqMod i v (s.take v.length) && s.getD v.length 0 == 0x2D)
  else if m = 0x5E then some (decide (v.length ≤ s.length) && eqMod i v (s.take v.length))
  else if m = 0x24 then some (decide (v.length ≤ s.length) && eqMod i v.reverse (s.reverse.take v.length))
  else if m = 0x2A then some (if i then contains (low v) (low s) else contains v s)
  else some false

/-- The test of the prefix in `type_selector::match` (grammar.hpp:970-992). -/
def nsType (c : Ctx) (pre : Option (List Nat)) (ns : List Nat) : Bool :=
  match pre with
  | some p =>
    if p = [0x2A] then true
    else if p = [] then ns.isEmpty
    else c.uris p == some ns
  | none =>
    match c.uris [] with
    | none => true
    | some u => u == ns

/-- `match` of the simple selectors, on the value of the node: `type_selector` (grammar.hpp:950-1010) with the dereferenced optional (966),
`id_selector` (247-283), `class_selector` (333-390), `attribute_selector` (684-852), `pseudo_class_selector` (510-538) with
`root_pseudo_class` (tree_structural_pseudo_classes.hpp:30-35), `pseudo_element_selector` (596-603). -/
def matchSimple (c : Ctx) (nd : Node) (x : Simple) : Option Bool :=
  if c.bad then none
  else
    match x, nd with
    | .type p n, .element ns _ loc _ =>
      some (nsType c p ns && (if c.type = htmlType then ci n loc else n == loc))
    | .universal none, .element .. => none
    | .universal (some p), .element ns _ _ _ => some (nsType c (some p) ns)
    | .id v, .element _ _ _ as => some (matchId c v as)
    | .cls n, .element _ _ _ as => some (matchClass c n as)
    | .attr p n m v i, .element _ _ _ as =>
      match findAttr c p n as with
      | none => some false
      | some a => matchValue m v i a.val
    | .pclass n, nd => some (low n == [0x72, 0x6F, 0x6F, 0x74] && nd.isRoot)
    | _, _ => some false

/-- `compound_selector::match` (grammar.hpp:1100-1112). -/
def matchCompound (c : Ctx) (nd : Node) : List Simple → Option Bool
  | [] => some true
  | x :: xs =>
    match matchSimple c nd x with
    | none => none
    | some false => some false
    | some true => matchCompound c nd xs

/-- `traits::pointer()`; comparison ignores the container (tree.hpp:244-254). -/
def nullIt : It := ⟨0, 0⟩

/-- Loops `for (p = …; p != pointer(); p = parent(p)) if (f(p)) return true` (grammar.hpp:1173-1176 and others); `fuel` bounds the depth. -/
def walkUp (t : T Node) (f : It → Option Bool) : Nat → It → Option Bool
  | fuel, p =>
    if p = nullIt then some false
    else
      match fuel with
      | 0 => none
      | fuel + 1 =>
        match f p with
        | none => none
        | some true => some true
        | some false => (p.up t).bind fun q => walkUp t f fuel q

/-- The loop for `+` (grammar.hpp:1189-1194). -/
def prevElement (t : T Node) (f : It → Option Bool) (first : It) : Nat → It → Option Bool
  | fuel, p =>
    if p = first then some false
    else
      match fuel with
      | 0 => none
      | fuel + 1 => (p.decr true t).bind fun q => (q.deref t).bind fun nd => if nd.isElement then f q else prevElement t f first fuel q

/-- The loop for `~` (grammar.hpp:1201-1205). -/
def prevElements (t : T Node) (f : It → Option Bool) (first : It) : Nat → It → Option Bool
  | fuel, p =>
    if p = first then some false
    else
      match fuel with
      | 0 => none
      | fuel + 1 =>
        (p.decr true t).bind fun q => (q.deref t).bind fun nd =>
          if nd.isElement then
            match f q with
            | none => none
            | some true => some true
            | some false => prevElements t f first fuel q
          else prevElements t f first fuel q

/-- The `switch` of `complex_selector::match` (grammar.hpp:1170-1212); `f` matches the rest of the selector. -/
def relate (t : T Node) (f : It → Option Bool) (k : Nat) (np : It) : Option Bool :=
  if k = 0x20 then (np.up t).bind fun p => walkUp t f t.len p
  else if k = 0x3E then (np.up t).bind fun p => if p = nullIt then some false else f p
  else if k = 0x2B then
    (np.up t).bind fun p => if p = nullIt then some false else (p.begin t).bind fun first => prevElement t f first t.len np
  else if k = 0x7E then
    (np.up t).bind fun p => if p = nullIt then some false else (p.begin t).bind fun first => prevElements t f first t.len np
  else some false

/-- `complex_selector::match` (grammar.hpp:1154-1213) on the items in reverse order. -/
def matchItems (t : T Node) (c : Ctx) : List Item → It → Option Bool
  | .comp x :: rest, np =>
    (np.deref t).bind fun nd =>
    match matchCompound c nd x with
    | none => none
    | some false => some false
    | some true =>
      match rest with
      | [] => some true
      | .comb k :: rest' => relate t (matchItems t c rest') k np
      | .comp y :: rest' => relate t (matchItems t c (.comp y :: rest')) 0x20 np
  | _, _ => none

/-- The loop of `complex_selector_list::match` (grammar.hpp:1499-1502). -/
def matchAny (t : T Node) (c : Ctx) : List (List Item) → It → Option Bool
  | [], _ => some false
  | x :: xs, np =>
    match matchItems t c x.reverse np with
    | none => none
    | some true => some true
    | some false => matchAny t c xs np

/-- `complex_selector_list::match` and `selector_list::match` (grammar.hpp:1493-1505 and 1541-1548). -/
def matchList (t : T Node) (c : Ctx) (sel : List (List Item)) (np : It) : Option Bool :=
  if c.bad then none else matchAny t c sel np

/-! ### Queries -/

/-- The loop for type and mode in `match_selector` (api.hpp:145-153). -/
def findDoc (t : T Node) : Nat → It → Option (Nat × Nat)
  | fuel, p =>
    if p = nullIt then some (0, 0)
    else
      match fuel with
      | 0 => none
      | fuel + 1 =>
        match p.deref t with
        | none => none
        | some (.document ty mo) => some (ty, mo)
        | some _ => (p.up t).bind fun q => findDoc t fuel q

/-- The test for a descendant of `scoping_root` in `match_selector` (api.hpp:167-180). -/
def inScope (t : T Node) (root p : It) : Option Bool :=
  if root = nullIt then some true else (p.up t).bind fun q => walkUp t (fun r => some (decide (r = root))) t.len q

/-- The part of the nodes `l` that `match_selector` puts out (api.hpp:182-188). -/
def pick (t : T Node) (c : Ctx) (sel : List (List Item)) (root : It) : List It → Option (List It)
  | [] => some []
  | p :: l =>
    (inScope t root p).bind fun d =>
    (if d then matchList t c sel p else some false).bind fun m =>
    (pick t c sel root l).map fun r => if m then p :: r else r

/-- The outer loop of `match_selector` (api.hpp:162-191). -/
def matchTrees (t : T Node) (c : Ctx) (sel : List (List Item)) (root last : It) : Nat → It → Option (List It)
  | fuel, first =>
    if first = last then some []
    else
      match fuel with
      | 0 => none
      | fuel + 1 =>
        (visit (stackNext t) t.len [first]).bind fun l =>
        (pick t c sel root l).bind fun r =>
        (first.incr t).bind fun next => (matchTrees t c sel root last fuel next).map fun r' => r ++ r'

/-- `match_selector` (api.hpp:111-192) without scope elements and pseudo-elements. -/
def matchSelector (t : T Node) (uris : Uris) (sel : List (List Item)) (first last root : It) : Option (List It) :=
  (if root = nullIt then some last else root.incr t).bind fun _ =>
  (findDoc t t.len first).bind fun d => matchTrees t ⟨d.1, d.2, uris⟩ sel root last t.len first

/-- The search for the root in `scope_match` (dom/infrastructure.hpp:82-96). -/
def findRoot (t : T Node) : Nat → It → Option It
  | fuel, p =>
    if p = nullIt then some nullIt
    else
      match fuel with
      | 0 => none
      | fuel + 1 =>
        match p.deref t with
        | none => none
        | some nd => if nd.isRoot then some p else (p.up t).bind fun q => findRoot t fuel q

/-- `scope_match` behind the parser (dom/infrastructure.hpp:74-104): `query_selector_all` (css/selector.hpp:50-55) of a parsed selector. -/
def queryAll (t : T Node) (sel : List (List Item)) (np : It) : Option (List It) :=
  (np.deref t).bind fun nd =>
  (if nd.isDocument then some np else findRoot t t.len np).bind fun root =>
  (root.incr t).bind fun next => matchSelector t (fun _ => none) sel root next np

/-- `query_selector` (css/selector.hpp:85-92) of a parsed selector: `front` of an empty vector is undefined. -/
def query (t : T Node) (sel : List (List Item)) (np : It) : Option It := (queryAll t sel np).bind List.head?

/-- `query_selector_all` of a string (css/selector.hpp:50-55). -/
def queryText (t : T Node) (fuel : Nat) (s : List Nat) (np : It) : Ends (List It) :=
  match parseSelector (fun _ => none) fuel s with
  | .stop sel =>
    match queryAll t sel np with
    | some l => .stop l
    | none => .ub
  | .ub => .ub
  | .more => .more

end Verif.Model.Selector
