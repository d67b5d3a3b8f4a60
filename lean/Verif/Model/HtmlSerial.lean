import Verif.Model.HtmlAtom
/-
Model of include/wordring/whatwg/html/parsing/serializing.hpp over the nodes of include/wordring/html/simple_node.hpp, through
include/wordring/html/simple_traits.hpp. `ct` is the character type of the tree's strings, `dst` that of the output.
`none` = a failing assertion or undefined behaviour. With `nd` (`NDEBUG`) the assertions of `simple_node` are absent.
-/
namespace Verif.Model.HtmlSerial
open Verif.Model.Unicode Verif.Model.HtmlAtom

/-- `simple_attr` (simple_node.hpp:25-154): namespace, prefix, local name, value. -/
structure Attr where
  ns : Atom
  pre : List Nat
  name : Atom
  val : List Nat

/-- `simple_element` (simple_node.hpp:404-560): namespace, prefix, local name, attributes. -/
structure Elem where
  ns : Atom
  pre : List Nat
  name : Atom
  attrs : List Attr

/-- The alternatives of `simple_node::value_type` (simple_node.hpp:779-787). -/
inductive Data
  | element (e : Elem)
  | text (s : List Nat)
  | pi (target data : List Nat)
  | comment (s : List Nat)
  | document
  | doctype (name : List Nat)
  | fragment

/-- A node of the tree container with its children. -/
inductive Node
  | mk (d : Data) (kids : List Node)

def Node.data : Node → Data
  | .mk d _ => d

def Node.kids : Node → List Node
  | .mk _ ks => ks

mutual
/-- Number of nodes. -/
def Node.size : Node → Nat
  | .mk _ ks => 1 + sizes ks

def sizes : List Node → Nat
  | [] => 0
  | n :: r => n.size + sizes r
end

/-- A node pointer below the serialized node: the places among the siblings on the way, nearest first. The empty list is
the serialized node. `traits::parent` is the tail. -/
abbrev Ptr := List Nat

/-- The node at a way given from the top. -/
def Node.walk : Node → List Nat → Option Node
  | n, [] => some n
  | n, i :: w =>
    match n.kids[i]? with
    | none => none
    | some k => k.walk w

/-- `*it`. -/
def fetch (root : Node) (p : Ptr) : Option Node := root.walk p.reverse

/-- The enumerators Area, Base, Br, Col, Embed, Hr, Img, Input, Link, Meta, Param, Source, Track, Wbr of `tag_name`
(atom_defs.hpp) named in syntax.hpp:18-21. -/
def voidTags : List Nat := [36, 42, 51, 70, 109, 200, 208, 212, 232, 258, 323, 376, 408, 424]

/-- Basefont, Bgsound, Frame, Keygen (serializing.hpp:31). -/
def moreVoidTags : List Nat := [43, 46, 182, 220]

/-- Style, Script, Xmp, Iframe, Noembed, Noframes, Plaintext (serializing.hpp:233-234). -/
def rawTags : List Nat := [381, 360, 425, 204, 305, 306, 331]

/-- `is_void_element` (syntax.hpp:8-28). -/
def isVoid (d : Data) : Bool :=
  match d with
  | .element e => toName e.ns == 1 && voidTags.contains (toName e.name)
  | _ => false

/-- `serializes_as_void` (serializing.hpp:19-39). -/
def serializesAsVoid (d : Data) : Bool :=
  if isVoid d then true
  else
    match d with
    | .element e => toName e.ns == 1 && moreVoidTags.contains (toName e.name)
    | _ => false

/-- `qualified_name` of elements and attributes (simple_node.hpp:498-505, 133-140). -/
def qualified (ct : CharT) (k : Kind) (pre : List Nat) (name : Atom) : Option (List Nat) :=
  match toStr ct k name with
  | none => none
  | some s =>
    if pre = [] then some s
    else
      match toString ct 0x3A with
      | none => none
      | some colon => some (pre ++ colon ++ s)

/-- `encoding_cast(s, out)` of a computed string. -/
def castOut (ct dst : CharT) : Option (List Nat) → Option (List Nat)
  | none => none
  | some s => encodingCast ct dst s

/-- Two pieces of output, one after the other. -/
def cat : Option (List Nat) → Option (List Nat) → Option (List Nat)
  | some s, some t => some (s ++ t)
  | _, _ => none

/-- `encoding_cast(std::u32string_view(U"..."), out)` and `to_string(cp, out)`. -/
def lit (dst : CharT) (s : List Nat) : Option (List Nat) := encodingCast .c32 dst s

/-- `get_tag_name` (44-59); no element: the assertion of `namespace_uri_name` fails. -/
def tagName (ct dst : CharT) (d : Data) : Option (List Nat) :=
  match d with
  | .element e =>
    if toName e.ns = 1 ∨ toName e.ns = 2 ∨ toName e.ns = 3 then castOut ct dst (toStr ct .tag e.name)
    else castOut ct dst (qualified ct .tag e.pre e.name)
  | _ => none

/-- `get_attributes_serialized_name` (61-97). -/
def attrName (ct dst : CharT) (a : Attr) : Option (List Nat) :=
  if toName a.ns = 0 then castOut ct dst (toStr ct .attr a.name)
  else if toName a.ns = 5 then cat (lit dst [0x78, 0x6D, 0x6C, 0x3A]) (castOut ct dst (toStr ct .attr a.name))
  else if toName a.ns = 6 then
    if toName a.name = 621 then lit dst [0x78, 0x6D, 0x6C, 0x6E, 0x73]
    else cat (lit dst [0x78, 0x6D, 0x6C, 0x6E, 0x73, 0x3A]) (castOut ct dst (toStr ct .attr a.name))
  else if toName a.ns = 4 then cat (lit dst [0x78, 0x6C, 0x69, 0x6E, 0x6B, 0x3A]) (castOut ct dst (toStr ct .attr a.name))
  else castOut ct dst (qualified ct .attr a.pre a.name)

/-- What `escape_string` writes for a code point (108-146). -/
def escapeCp (dst : CharT) (attr : Bool) (cp : Nat) : Option (List Nat) :=
  if attr then
    if cp = 0x26 then lit dst [0x26, 0x61, 0x6D, 0x70, 0x3B]
    else if cp = 0xA0 then lit dst [0x26, 0x6E, 0x62, 0x73, 0x70, 0x3B]
    else if cp = 0x22 then lit dst [0x26, 0x71, 0x75, 0x6F, 0x74, 0x3B]
    else toString dst cp
  else
    if cp = 0x26 then lit dst [0x26, 0x61, 0x6D, 0x70, 0x3B]
    else if cp = 0xA0 then lit dst [0x26, 0x6E, 0x62, 0x73, 0x70, 0x3B]
    else if cp = 0x3C then lit dst [0x26, 0x6C, 0x74, 0x3B]
    else if cp = 0x3E then lit dst [0x26, 0x67, 0x74, 0x3B]
    else toString dst cp

/-- `escape_string` (99-148). -/
def escape (ct dst : CharT) (attr : Bool) (s : List Nat) : Option (List Nat) :=
  loopCP ct (fun out cp => cat (some out) (escapeCp dst attr cp)) [] s

/-- The loop over the attributes (211-220). -/
def attrsOut (ct dst : CharT) : List Attr → Option (List Nat)
  | [] => some []
  | a :: r =>
    cat (lit dst [0x20]) (cat (attrName ct dst a) (cat (lit dst [0x3D]) (cat (lit dst [0x22])
      (cat (escape ct dst true a.val) (cat (lit dst [0x22]) (attrsOut ct dst r))))))

/-- `</name>` (185-190, 268-273). -/
def closeOut (ct dst : CharT) (d : Data) : Option (List Nat) :=
  if serializesAsVoid d then some []
  else cat (lit dst [0x3C, 0x2F]) (cat (tagName ct dst d) (lit dst [0x3E]))

/-- What is written for the current node below `parent` (204-262). -/
def nodeOut (ct dst : CharT) (nd : Bool) (parent d : Data) : Option (List Nat) :=
  match d with
  | .element e => cat (lit dst [0x3C]) (cat (tagName ct dst d) (cat (attrsOut ct dst e.attrs) (lit dst [0x3E])))
  | .text s =>
    match parent with
    | .element e =>
      if toName e.ns = 1 ∧ rawTags.contains (toName e.name) then encodingCast ct dst s
      else escape ct dst false s
    | _ => if nd then escape ct dst false s else none
  | .comment s => cat (lit dst [0x3C, 0x21, 0x2D, 0x2D]) (cat (encodingCast ct dst s) (lit dst [0x2D, 0x2D, 0x3E]))
  | .pi target data =>
    cat (lit dst [0x3C, 0x3F]) (cat (encodingCast ct dst target) (cat (lit dst [0x20])
      (cat (encodingCast ct dst data) (lit dst [0x3E]))))
  | .doctype name =>
    cat (lit dst [0x3C, 0x21, 0x44, 0x4F, 0x43, 0x54, 0x59, 0x50, 0x45, 0x20]) (cat (encodingCast ct dst name) (lit dst [0x3E]))
  | .document => some []
  | .fragment => some []

/-- The closing tags before the current node (183-192). Stacks have their back in front. -/
def closeTo (ct dst : CharT) (root : Node) (parent : Ptr) : List Ptr → Option (List Nat × List Ptr)
  | [] => none
  | b :: x =>
    if b = parent then some ([], b :: x)
    else
      match fetch root b with
      | none => none
      | some n =>
        match closeOut ct dst n.data, closeTo ct dst root parent x with
        | some s, some (t, x') => some (s ++ t, x')
        | _, _ => none

/-- The closing tags at the end (266-275). -/
def closeRest (ct dst : CharT) (root : Node) : List Ptr → Option (List Nat)
  | [] => some []
  | [_] => some []
  | b :: x =>
    match fetch root b with
    | none => none
    | some n => cat (closeOut ct dst n.data) (closeRest ct dst root x)

/-- The children of a node, first child in front (`pos = y.insert(pos, it1++)`, 171-174, 198-201). -/
def kidPtrs (p : Ptr) (n : Node) : List Ptr := (List.range n.kids.length).map (· :: p)

/-- The loop of `to_string` (176-275) on parent stack `x` and search stack `y`. At most `fuel` rounds. -/
def loop (ct dst : CharT) (nd : Bool) (root : Node) : Nat → List Ptr → List Ptr → Option (List Nat)
  | _, x, [] => closeRest ct dst root x
  | 0, _, _ :: _ => none
  | _ + 1, _, [] :: _ => none
  | fuel + 1, x, (i :: p) :: y =>
    match fetch root (i :: p), fetch root p, closeTo ct dst root p x with
    | some n, some m, some (s, x) =>
      match n.data with
      | .element _ =>
        cat (some s) (cat (nodeOut ct dst nd m.data n.data)
          (loop ct dst nd root fuel ((i :: p) :: x) (kidPtrs (i :: p) n ++ y)))
      | _ => cat (some s) (cat (nodeOut ct dst nd m.data n.data) (loop ct dst nd root fuel x y))
    | _, _, _ => none

/-- `to_string` (158-276): what is appended to the output. -/
def serialize (ct dst : CharT) (nd : Bool) (root : Node) : Option (List Nat) :=
  if serializesAsVoid root.data then some []
  else loop ct dst nd root root.size [[]] (kidPtrs [] root)

end Verif.Model.HtmlSerial
