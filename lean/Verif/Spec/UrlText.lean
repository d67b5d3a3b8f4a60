import Verif.Spec.Url
/-
Which URL records can be written as text and read again. Of the model only the types of hosts, records and errors are used.
-/
namespace Verif.Spec.UrlText
open Verif.Model.Host (Host Ec)
open Verif.Model.Url (Url)
open Verif.Spec.Infra Verif.Spec.Percent Verif.Spec.Host Verif.Spec.Url

/-- Letters. -/
def Letter (c : Nat) : Prop := (0x41 ≤ c ∧ c ≤ 0x5A) ∨ (0x61 ≤ c ∧ c ≤ 0x7A)

/-- Nothing about the record gets lost in its text. -/
structure Readable (u : Url) : Prop where
  /-- An IPv6 address has at most two runs of zeros, see C45. -/
  v6 : ∀ a, u.host = some (.ipv6 a) → zeroRuns a ≤ 2
  /-- The host of a `file` URL is not an address, not `localhost` and not a drive letter. -/
  file : u.scheme = codes "file" → (∀ a, u.host ≠ some (.ipv6 a)) ∧ (∀ n, u.host ≠ some (.ipv4 n)) ∧
    u.host ≠ some (.domain (codes "localhost")) ∧ ∀ a, u.host = some (.domain [a, 0x7C]) → ¬ Letter a
  /-- The drive letter of a `file` URL is followed by a colon. -/
  drive : u.scheme = codes "file" → ∀ a, u.path.head? = some [a, 0x7C] → ¬ Letter a
  /-- A URL without a host has more than a slash behind the scheme, unless it cannot be a base. -/
  rooted : u.host = none → u.cannotBeBase = false → u.path ≠ [] ∧ (u.path = [[]] → u.query ≠ none ∨ u.fragment ≠ none)
  /-- A URL that cannot be a base has no slash behind the scheme, unless this is all. -/
  slash : u.cannotBeBase = true → ∀ p, u.path = [0x2F :: p] → p = [] ∧ u.query = none ∧ u.fragment = none
  /-- Its text does not end in a space. -/
  space : u.cannotBeBase = true → ∀ p, u.path = [p ++ [0x20]] → u.query ≠ none ∨ u.fragment ≠ none

/-- What is asked of `domain_to_ascii`: a domain is not empty and in ASCII, and domains and addresses in dotted decimal go
through unchanged. -/
structure Settled (toAscii : List Nat → Ec → List Nat × Ec) : Prop where
  ne_nil : ∀ q d, toAscii q none = (d, none) → d ≠ []
  ascii : ∀ q d, toAscii q none = (d, none) → ∀ c ∈ d, c < 0x80
  again : ∀ q d, toAscii q none = (d, none) → toAscii d none = (d, none)
  address : ∀ n < 2 ^ 32, toAscii (dotted n) none = (dotted n, none)

end Verif.Spec.UrlText
