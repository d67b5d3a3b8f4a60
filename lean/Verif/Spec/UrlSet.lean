import Verif.Spec.Unicode
import Verif.Spec.Url
/-
What the setters of a URL do, as a user of the URL standard expects it. Of the model only the type of records is used.
-/
namespace Verif.Spec.UrlSet
open Verif.Spec Verif.Spec.Infra Verif.Spec.Percent Verif.Spec.Url

/-- A text in UTF-8, percent-encoded. -/
def encoded (p : PSet) (s : List Nat) : List Nat := s.flatMap fun c => (utf8 c).flatMap (unit p false)

/-- A text without tabs and line breaks. -/
def joined (s : List Nat) : List Nat := s.filter fun c => decide (c ∉ [0x09, 0x0A, 0x0D])

/-- A text without one leading mark. -/
def unmarked (m : Nat → Bool) : List Nat → List Nat
  | [] => []
  | c :: s => if m c then s else c :: s

/-- The query a text stands for: nothing for no text. -/
def queryOf (scheme s : List Nat) : Option (List Nat) :=
  if s = [] then none
  else some (encoded (if Special scheme then .specialQuery else .query) (joined (unmarked (fun c => decide (c = 0x3F)) s)))

/-- The fragment a text stands for. -/
def fragmentOf (s : List Nat) : Option (List Nat) :=
  if s = [] then none else some (encoded .fragment (joined (unmarked (fun c => decide (c = 0x23)) s)))

/-- The pieces of a text between separators. -/
def pieces (sep : Nat → Bool) : List Nat → List (List Nat)
  | [] => [[]]
  | c :: s =>
    if sep c then [] :: pieces sep s
    else
      match pieces sep s with
      | [] => [[c]]
      | p :: ps => (c :: p) :: ps

/-- `.`, escaped or not. -/
def Here (p : List Nat) : Prop := p.map lower ∈ [codes ".", codes "%2e"]

/-- `..`, escaped or not. -/
def Up (p : List Nat) : Prop := p.map lower ∈ [codes "..", codes ".%2e", codes "%2e.", codes "%2e%2e"]

instance (p : List Nat) : Decidable (Here p) := by unfold Here; infer_instance
instance (p : List Nat) : Decidable (Up p) := by unfold Up; infer_instance

/-- A letter and one of the given marks. -/
def Drive (marks : List Nat) : List Nat → Prop
  | [a, b] => Lower (lower a) ∧ b ∈ marks
  | _ => False

instance (m p : List Nat) : Decidable (Drive m p) := by unfold Drive Lower; split <;> infer_instance

/-- The path one level up. The drive letter of a `file` URL stays. -/
def parent (file : Bool) (ps : List (List Nat)) : List (List Nat) :=
  if file = true ∧ ps.length = 1 ∧ Drive (codes ":") (ps.headD []) then ps else ps.dropLast

/-- A name at the end of a path; `C|` at the beginning of the path of a `file` URL becomes `C:`. -/
def child (file : Bool) (ps : List (List Nat)) (p : List Nat) : List (List Nat) :=
  ps ++ [if file = true ∧ ps = [] ∧ Drive (codes ":|") p then p.take 1 ++ codes ":" else p]

/-- The path after one more segment. -/
def enter (file last : Bool) (ps : List (List Nat)) (p : List Nat) : List (List Nat) :=
  if Up p then (if last then parent file ps ++ [[]] else parent file ps)
  else if Here p then (if last then ps ++ [[]] else ps)
  else child file ps p

/-- The path after several segments. -/
def walk (file : Bool) : List (List Nat) → List (List Nat) → List (List Nat)
  | ps, [] => ps
  | ps, [p] => enter file true ps p
  | ps, p :: q :: qs => walk file (enter file false ps p) (q :: qs)

/-- The path a text stands for. -/
def pathOf (scheme s : List Nat) : List (List Nat) :=
  let sep : Nat → Bool := fun c => decide (c = 0x2F ∨ (Special scheme ∧ c = 0x5C))
  if ¬ Special scheme ∧ s = [] then []
  else walk (decide (scheme = codes "file")) [] ((pieces sep (unmarked sep s)).map (encoded .path))

/-- A scheme in capital or small letters. -/
def SchemeText (w : List Nat) : Prop :=
  ∃ a r, w = a :: r ∧ Lower (lower a) ∧ ∀ c ∈ r, Lower (lower c) ∨ (0x30 ≤ c ∧ c ≤ 0x39) ∨ c ∈ codes "+-."

/-- A scheme a URL may take on: a special one for a special one, `file` only without credentials and port, and no other than
`file` for a `file` URL without a host. -/
def Takes (u : Verif.Model.Url.Url) (t : List Nat) : Prop :=
  (Special u.scheme ↔ Special t) ∧ ¬ (t = codes "file" ∧ (u.username ≠ [] ∨ u.password ≠ [] ∨ u.port ≠ none)) ∧
  ¬ (u.scheme = codes "file" ∧ u.host = some .empty)

/-- A URL under another scheme: the port of that scheme is left out. -/
def renamed (u : Verif.Model.Url.Url) (t : List Nat) : Verif.Model.Url.Url :=
  { u with scheme := t, port := if (t, u.port) ∈ specials then none else u.port }

/-- The text of a host, up to a colon outside brackets or to what begins a path, a query or a fragment; and the rest. -/
def hostPart (special : Bool) : Bool → List Nat → List Nat × List Nat
  | _, [] => ([], [])
  | inside, c :: s =>
    if (c = 0x3A ∧ inside = false) ∨ c ∈ codes "/?#" ∨ (special = true ∧ c = 0x5C) then ([], c :: s)
    else
      let r := hostPart special (if c = 0x5B then true else if c = 0x5D then false else inside) s
      (c :: r.1, r.2)

/-- An empty host is refused: by special URLs, in front of a colon, and beside credentials or a port. -/
def NeedsHost (u : Verif.Model.Url.Url) (rest : List Nat) : Prop :=
  Special u.scheme ∨ rest.head? = some 0x3A ∨ u.username ≠ [] ∨ u.password ≠ [] ∨ u.port ≠ none

instance (u : Verif.Model.Url.Url) (r : List Nat) : Decidable (NeedsHost u r) := by unfold NeedsHost; infer_instance

end Verif.Spec.UrlSet
