import Verif.Spec.UrlSet
/-
What a reference means beside a base, as a user of the URL standard expects it. Of the model only the type of records is used.
-/
namespace Verif.Spec.UrlResolve
open Verif.Model.Url (Url)
open Verif.Spec Verif.Spec.Infra Verif.Spec.Percent Verif.Spec.Url Verif.Spec.UrlSet

/-- A text without control characters and spaces at both ends, and without tabs and line breaks. -/
def tidied (s : List Nat) : List Nat :=
  joined ((s.dropWhile fun c => decide (c ≤ 0x20)).reverse.dropWhile fun c => decide (c ≤ 0x20)).reverse

/-- A text up to a mark, and what follows the mark. -/
def cut (m : Nat) : List Nat → List Nat × Option (List Nat)
  | [] => ([], none)
  | c :: s => if c = m then ([], some s) else (c :: (cut m s).1, (cut m s).2)

/-- What separates the segments of a path. -/
def isSlash (scheme : List Nat) (c : Nat) : Bool := decide (c = 0x2F ∨ (Special scheme ∧ c = 0x5C))

/-- A path that begins with a drive letter. -/
def DriveFirst (p : List Nat) : Prop := Drive (codes ":|") (p.take 2) ∧ ∀ c, p[2]? = some c → c ∈ codes "/\\"

instance (p : List Nat) : Decidable (DriveFirst p) := by
  unfold DriveFirst
  cases h : p[2]? with
  | none => exact decidable_of_iff (Drive (codes ":|") (p.take 2)) (by simp)
  | some c => exact decidable_of_iff (Drive (codes ":|") (p.take 2) ∧ c ∈ codes "/\\") (by simp)

/-- Where a path that begins with a slash starts: at the root, or at the drive of a `file` URL. -/
def rootOf (b : Url) (p : List Nat) : List (List Nat) :=
  if b.scheme = codes "file" ∧ ¬ DriveFirst p ∧ b.path ≠ [] ∧ Drive (codes ":") (b.path.headD []) then [b.path.headD []] else []

/-- Where any other path starts: beside the last segment of the base, but for a drive letter. -/
def besideOf (b : Url) (p : List Nat) : List (List Nat) :=
  if b.scheme = codes "file" ∧ DriveFirst p then [] else parent (decide (b.scheme = codes "file")) b.path

/-- The path of a reference that has one. -/
def pathFrom (b : Url) : List Nat → List (List Nat)
  | [] => b.path
  | c :: p =>
    let file := decide (b.scheme = codes "file")
    if isSlash b.scheme c then walk file (rootOf b p) ((pieces (isSlash b.scheme) p).map (encoded .path))
    else walk file (besideOf b (c :: p)) ((pieces (isSlash b.scheme) (c :: p)).map (encoded .path))

/-- What a reference without scheme and host means: the base, but for the fragment; the query, unless there is neither path nor
query; and the path, unless there is none. -/
def target (b : Url) (r : List Nat) : Url :=
  let f := cut 0x23 r
  let q := cut 0x3F f.1
  { b with
    path := pathFrom b q.1
    query := if q.1 = [] ∧ q.2 = none then b.query else q.2.map (encoded (if Special b.scheme then .specialQuery else .query))
    fragment := f.2.map (encoded .fragment) }

/-- A text with a scheme. -/
def HasScheme (r : List Nat) : Prop := ∃ w s, SchemeText w ∧ r = w ++ 0x3A :: s

/-- A text with a host: it begins with two slashes. -/
def HasHost (scheme r : List Nat) : Prop := ∃ c d s, r = c :: d :: s ∧ isSlash scheme c = true ∧ isSlash scheme d = true

/-- The text is a reference: it has no scheme, or that of the base, which is special, in front. -/
def Refers (b : Url) (i r : List Nat) : Prop :=
  (i = r ∧ ¬ HasScheme r) ∨ ∃ w, SchemeText w ∧ i = w ++ 0x3A :: r ∧ w.map lower = b.scheme ∧ Special b.scheme

/-- A text that means the same beside every base: behind a scheme that is not special, behind another scheme than that of the base, or
with a host. -/
def Absolute (b : Url) (w r : List Nat) : Prop := ¬ Special (w.map lower) ∨ b.scheme ≠ w.map lower ∨ HasHost (w.map lower) r

end Verif.Spec.UrlResolve
