import Verif.Props.Unicode
import Verif.Model.HtmlAtom
/- What the names of HTML atoms stand for. -/
namespace Verif.Spec.HtmlAtom
open Verif.Model.Unicode Verif.Model.HtmlAtom Verif.Model.Tables.HtmlAtom Verif.Props.Unicode

/-- The enumerators of a kind of names: identifier and value. -/
def enumerators : Kind → List (List Nat × Nat)
  | .ns => nsEnum
  | .tag => tagEnum
  | .attr => attrEnum

/-- An ASCII letter or digit. -/
def Alnum (c : Nat) : Prop := (48 ≤ c ∧ c ≤ 57) ∨ (65 ≤ c ∧ c ≤ 90) ∨ (97 ≤ c ∧ c ≤ 122)

instance (c : Nat) : Decidable (Alnum c) := by unfold Alnum; infer_instance

/-- The C++ identifier spelled after a tag or attribute: `_` for what is no letter or digit, the first letter large. -/
def identifier (s : List Nat) : List Nat :=
  match s.map (fun c => if Alnum c then c else 95) with
  | [] => []
  | c :: r => (if 97 ≤ c ∧ c ≤ 122 then c - 32 else c) :: r

/-- The code points of an ASCII string. -/
def codes (l : String) : List Nat := l.toList.map Char.toNat

/-- The namespaces of the Infra standard (section 8) by identifier. -/
def namespaces : List (String × String) := [
  ("HTML", "http://www.w3.org/1999/xhtml"),
  ("MathML", "http://www.w3.org/1998/Math/MathML"),
  ("SVG", "http://www.w3.org/2000/svg"),
  ("XLink", "http://www.w3.org/1999/xlink"),
  ("XML", "http://www.w3.org/XML/1998/namespace"),
  ("XMLNS", "http://www.w3.org/2000/xmlns/")]

/-- The string `s` is what the enumerator `id` of kind `k` is named after. -/
def NamedAfter : Kind → List Nat → List Nat → Prop
  | .ns, id, s => ∃ p ∈ namespaces, id = codes p.1 ∧ s = codes p.2
  | _, id, s => id = identifier s

/-- A value that an enumeration variable may have: an enumerator, or 0 for none. -/
def Valid (k : Kind) (i : Nat) : Prop := i = 0 ∨ ∃ id, (id, i) ∈ enumerators k

/-- Atoms made by the public constructors. -/
inductive Made (ct : CharT) (k : Kind) : Atom → Prop
  | empty : Made ct k empty
  | str (s : List Nat) (a : Atom) : (∀ c ∈ s, IsScalar c) → ofString ct k (formOf ct s) = some a → Made ct k a
  | name (i : Nat) : Valid k i → Made ct k (ofName i)

end Verif.Spec.HtmlAtom
