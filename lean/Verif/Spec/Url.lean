import Verif.Spec.Host
import Verif.Model.Url
/-
URL records as the URL standard has them. Of the model only the types of hosts and records are used.
-/
namespace Verif.Spec.Url
open Verif.Model.Host (Host)
open Verif.Model.Url (Url)
open Verif.Spec.Infra Verif.Spec.Percent Verif.Spec.Host

/-- The special schemes and their ports. -/
def specials : List (List Nat × Option Nat) :=
  [(codes "ftp", some 21), (codes "file", none), (codes "http", some 80), (codes "https", some 443), (codes "ws", some 80),
    (codes "wss", some 443)]

/-- Special schemes. -/
def Special (s : List Nat) : Prop := ∃ p, (s, p) ∈ specials

instance (s : List Nat) : Decidable (Special s) :=
  decidable_of_iff (s ∈ specials.map Prod.fst) (by simp [Special])

/-- Lower case letters. -/
def Lower (c : Nat) : Prop := 0x61 ≤ c ∧ c ≤ 0x7A

/-- A scheme: a letter, then letters, digits, `+`, `-` and `.`; lower case. -/
def SchemeOk (s : List Nat) : Prop :=
  ∃ a r, s = a :: r ∧ Lower a ∧ ∀ c ∈ r, Lower c ∨ (0x30 ≤ c ∧ c ≤ 0x39) ∨ c ∈ codes "+-."

/-- `.` and `..`, escaped or not. -/
def DotSegment (p : List Nat) : Prop :=
  p.map lower ∈ [codes ".", codes "%2e", codes "..", codes ".%2e", codes "%2e.", codes "%2e%2e"]

instance (p : List Nat) : Decidable (DotSegment p) := by unfold DotSegment; infer_instance

/-- The hosts of special URLs are domains and addresses, those of other URLs text and IPv6 addresses. -/
def GoodHost (special : Prop) : Host → Prop
  | .null => False
  | .empty => special
  | .domain d => special ∧ d ≠ [] ∧ ∀ c ∈ d, ¬ Forbidden c
  | .ipv4 n => special ∧ n < 2 ^ 32
  | .ipv6 a => a.length = 8 ∧ ∀ v ∈ a, v < 65536
  | .opaque s => ¬ special ∧ ∀ c ∈ s, 0x20 < c ∧ c ≤ 0x7E ∧ (c = 0x25 ∨ ¬ Forbidden c)

/-- Hosts without text. -/
def Blank : Host → Prop
  | .empty => True
  | .opaque s => s = []
  | _ => False

/-- A URL record that the standard knows. -/
structure ValidUrl (u : Url) : Prop where
  scheme : SchemeOk u.scheme
  username : ∀ c ∈ u.username, ¬ InSet .userinfo c
  password : ∀ c ∈ u.password, ¬ InSet .userinfo c
  host : ∀ h, u.host = some h → GoodHost (Special u.scheme) h
  port : ∀ p, u.port = some p → p ≤ 65535 ∧ (u.scheme, some p) ∉ specials
  query : ∀ q, u.query = some q → ∀ c ∈ q, ¬ InSet .query c ∧ (Special u.scheme → ¬ InSet .specialQuery c)
  fragment : ∀ f, u.fragment = some f → ∀ c ∈ f, ¬ InSet .fragment c
  /-- A special URL has a host, which is not empty but for `file`, and a path. -/
  special : Special u.scheme → u.host ≠ none ∧ u.path ≠ [] ∧ u.cannotBeBase = false ∧ (u.scheme ≠ codes "file" → u.host ≠ some .empty)
  file : u.scheme = codes "file" → u.username = [] ∧ u.password = [] ∧ u.port = none
  /-- Credentials and a port need a host. -/
  authority : u.username ≠ [] ∨ u.password ≠ [] ∨ u.port ≠ none → ∃ h, u.host = some h ∧ ¬ Blank h
  /-- A URL that cannot be a base has no host, and a path without structure. -/
  cannot : u.cannotBeBase = true → u.host = none ∧ ∃ p, u.path = [p] ∧ ∀ c ∈ p, ¬ InSet .c0 c ∧ c ≠ 0x3F ∧ c ≠ 0x23
  path : u.cannotBeBase = false → ∀ p ∈ u.path, ¬ DotSegment p ∧
    ∀ c ∈ p, ¬ InSet .path c ∧ c ≠ 0x2F ∧ (Special u.scheme → c ≠ 0x5C)

end Verif.Spec.Url
