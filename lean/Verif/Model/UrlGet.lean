import Verif.Model.Url
/-
Model of the getters of `basic_url` (include/wordring/whatwg/url/api.hpp). `encoding_cast` between strings is left out (C26): texts
are lists of code points, as in `Verif.Model.Url`. `none` = a failing assertion of `serialize_host`, or `front()` of an empty path.
-/
namespace Verif.Model.UrlGet
open Verif.Model.Percent Verif.Model.Host Verif.Model.Url

/-- The `href` getter (api.hpp:82). -/
def getHref (u : Url) : Option (List Nat) := serializeUrl u false

/-- The `protocol` getter (118-123). -/
def getProtocol (u : Url) : List Nat := u.scheme ++ [0x3A]

/-- The `username` getter (142). -/
def getUsername (u : Url) : List Nat := u.username

/-- The `password` getter (159). -/
def getPassword (u : Url) : List Nat := u.password

/-- The `host` getter (176-186). -/
def getHost (u : Url) : Option (List Nat) :=
  match u.host with
  | none => some []
  | some h =>
    match serializeHost h with
    | none => none
    | some s =>
      match u.port with
      | none => some s
      | some p => some (s ++ [0x3A] ++ serializeInteger p)

/-- The `hostname` getter (205-209). -/
def getHostname (u : Url) : Option (List Nat) :=
  match u.host with
  | none => some []
  | some h => serializeHost h

/-- The `port` getter (228-234). -/
def getPort (u : Url) : List Nat :=
  match u.port with
  | none => []
  | some p => serializeInteger p

/-- The `pathname` getter (257-267). -/
def getPathname (u : Url) : Option (List Nat) :=
  if u.cannotBeBase then u.path.head? else some (u.path.flatMap fun p => 0x2F :: p)

/-- The `search` getter (287-294). -/
def getSearch (u : Url) : List Nat :=
  match u.query with
  | none => []
  | some q => if q = [] then [] else 0x3F :: q

/-- The `hash` getter (319-326). -/
def getHash (u : Url) : List Nat :=
  match u.fragment with
  | none => []
  | some f => if f = [] then [] else 0x23 :: f

end Verif.Model.UrlGet
