import Verif.Model.Tables.HtmlAtom
import Verif.Model.Unicode
/-
Model of `basic_html_atom` (include/wordring/whatwg/html/html_atom.hpp). Strings are lists of code units of the character
type of the template argument. `none` = a failing assertion in `encoding_cast`, or reading a table past its end.
-/
namespace Verif.Model.HtmlAtom
open Verif.Model.Unicode Verif.Model.Tables.HtmlAtom

/-- The template argument `Name`: `ns_name`, `tag_name` or `attribute_name`. -/
inductive Kind | ns | tag | attr
deriving DecidableEq, Repr

/-- The map chosen by `if constexpr` in the constructor (77-91). -/
def map : Kind → List (List Nat × Nat)
  | .ns => nsMap
  | .tag => tagMap
  | .attr => attrMap

/-- The table chosen by `if constexpr` in the conversion (112-114). -/
def names : Kind → List (List Nat)
  | .ns => nsNames
  | .tag => tagNames
  | .attr => attrNames

/-- `unordered_map::find`. Of rows with equal keys the first stays in the map. -/
def find (s : List Nat) : List (List Nat × Nat) → Option Nat
  | [] => none
  | (t, i) :: r => if s = t then some i else find s r

/-- `m_string` and `m_i` (123-124). -/
structure Atom where
  str : List Nat
  id : Nat
deriving DecidableEq, Repr

/-- `basic_html_atom()` (65-69). -/
def empty : Atom := ⟨[], 0⟩

/-- `basic_html_atom(string_type const&)` (71-92). -/
def ofString (ct : CharT) (k : Kind) (s : List Nat) : Option Atom :=
  match encodingCast ct .c32 s with
  | none => none
  | some u =>
    match find u (map k) with
    | some i => some ⟨s, i⟩
    | none => some ⟨s, 0⟩

/-- `basic_html_atom(name_type)` (94-98). -/
def ofName (i : Nat) : Atom := ⟨[], i⟩

/-- `operator string_type` (105-118). -/
def toStr (ct : CharT) (k : Kind) (a : Atom) : Option (List Nat) :=
  if a.str ≠ [] then some a.str
  else
    match (names k)[a.id]? with
    | none => none
    | some s => encodingCast .c32 ct s

/-- `operator name_type` (120). -/
def toName (a : Atom) : Nat := a.id

/-- `operator==` of two atoms (127-132). -/
def eq (ct : CharT) (k : Kind) (a b : Atom) : Option Bool :=
  if a.id ≠ 0 ∧ b.id ≠ 0 then some (a.id == b.id)
  else
    match toStr ct k a, toStr ct k b with
    | some s, some t => some (s == t)
    | _, _ => none

/-- `operator==` with a name on the right or the left (134-144). -/
def eqName (ct : CharT) (k : Kind) (a : Atom) (i : Nat) : Option Bool := eq ct k a (ofName i)

def nameEq (ct : CharT) (k : Kind) (i : Nat) (a : Atom) : Option Bool := eq ct k (ofName i) a

/-- `operator==` with a string on the right or the left (146-156). -/
def eqStr (ct : CharT) (k : Kind) (a : Atom) (s : List Nat) : Option Bool :=
  match ofString ct k s with
  | none => none
  | some b => eq ct k a b

def strEq (ct : CharT) (k : Kind) (s : List Nat) (a : Atom) : Option Bool :=
  match ofString ct k s with
  | none => none
  | some b => eq ct k b a

/-- `operator!=` (158-188). -/
def ne (ct : CharT) (k : Kind) (a b : Atom) : Option Bool := (eq ct k a b).map (!·)

end Verif.Model.HtmlAtom
