import Verif.Spec.UrlSet
import Verif.Spec.UrlText
/-
What the getters of a URL give and what setting host and port does. Of the model only the types of hosts and records are used.
-/
namespace Verif.Spec.UrlGet
open Verif.Model.Host (Host)
open Verif.Model.Url (Url)
open Verif.Spec.Infra Verif.Spec.Percent Verif.Spec.Host Verif.Spec.Url Verif.Spec.UrlSet

/-- The decimal digits at the beginning of a text. -/
def digits (s : List Nat) : List Nat := s.takeWhile fun c => decide (0x30 ≤ c ∧ c ≤ 0x39)

/-- A URL with another port; the port of its scheme is left out. -/
def withPort (u : Url) (v : Nat) : Url := { u with port := if (u.scheme, some v) ∈ specials then none else some v }

/-- What a port that is written in a text makes of a URL: nothing without digits, and nothing for numbers that do not count. -/
def PortFrom (counts : List Nat → Nat → Prop) (u : Url) (s : List Nat) (u' : Url) : Prop :=
  (digits s = [] → u' = u) ∧
  ∀ v, Numeral 10 (digits s) v → (counts (digits s) v → u' = withPort u v) ∧ (¬ counts (digits s) v → u' = u)

/-- The text up to what begins a path, a query or a fragment of a `file` URL. -/
def fileHostText (s : List Nat) : List Nat := s.takeWhile fun c => decide (c ∉ codes "/\\?#")

end Verif.Spec.UrlGet
