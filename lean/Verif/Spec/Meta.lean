import Verif.Spec.Labels
import Verif.Spec.Infra
/-
The encoding declared by the `content` of a `meta` element (HTML, "algorithm for extracting a character encoding from a meta
element"), said without an algorithm.
-/
namespace Verif.Spec.Meta
open Verif.Spec.Infra Verif.Model.Legacy
open Verif.Spec.Labels (codes labels)

/-- A text beginning with `charset`, in any case, and `=`, with white space between; `rest` is what follows. -/
def Opens (s rest : List Nat) : Prop :=
  ∃ k w, s = k ++ w ++ 61 :: rest ∧ k.map lower = codes "charset" ∧ ∀ c ∈ w, IsWs c

/-- `rest` is what follows the first `charset =` of `s`. -/
def FirstDecl (s rest : List Nat) : Prop :=
  ∃ pre m, s = pre ++ m ∧ Opens m rest ∧ ∀ pre' m', s = pre' ++ m' → (∃ r, Opens m' r) → pre.length ≤ pre'.length

/-- The value behind the `=`: between two equal quotes, or up to a semicolon or white space. -/
inductive Value : List Nat → List Nat → Prop
  | quoted (w : List Nat) (q : Nat) (v r : List Nat) (hw : ∀ c ∈ w, IsWs c) (hq : q = 34 ∨ q = 39) (hv : q ∉ v) :
      Value (w ++ q :: (v ++ q :: r)) v
  | bare (w v r : List Nat) (hw : ∀ c ∈ w, IsWs c) (hv : ∀ c ∈ v, c ≠ 59 ∧ ¬ IsWs c)
      (hh : ∀ c, (v ++ r).head? = some c → c ≠ 34 ∧ c ≠ 39 ∧ ¬ IsWs c)
      (hr : ∀ c, r.head? = some c → c = 59 ∨ IsWs c) : Value (w ++ v ++ r) v

/-- A label of an encoding, up to case and surrounding white space. -/
def IsLabel (v : List Nat) (e : Enc) : Prop := ∃ t, IsTrim v t ∧ ∃ l ∈ labels e, codes l = t.map lower

/-- `s` declares the encoding `e`. -/
def Declares (s : List Nat) (e : Enc) : Prop := ∃ rest v, FirstDecl s rest ∧ Value rest v ∧ IsLabel v e

end Verif.Spec.Meta
