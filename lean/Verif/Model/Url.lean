import Verif.Model.Host
/-
Model of lib/whatwg/url/url.cpp, include/wordring/whatwg/url/url.hpp and include/wordring/whatwg/url/api.hpp: URLs. Strings are
`std::u32string`s, lists of code points; the conversions of `basic_url` from and to its string type are left out.
-/
namespace Verif.Model.Url
open Verif.Model.Infra Verif.Model.Unicode Verif.Model.Coder Verif.Model.Legacy Verif.Model.Percent Verif.Model.Host

/-- A `U"..."` literal. -/
def lit (s : String) : List Nat := s.toList.map Char.toNat

/-- `url_record_base` (url.hpp:31-43), without the unused blob entry. -/
structure Url where
  scheme : List Nat := []
  username : List Nat := []
  password : List Nat := []
  host : Option Host := none
  port : Option Nat := none
  path : List (List Nat) := []
  query : Option (List Nat) := none
  fragment : Option (List Nat) := none
  cannotBeBase : Bool := false
deriving DecidableEq, Repr

/-- `is_special_scheme` (url.cpp:14-23). -/
def isSpecialScheme (s : List Nat) : Bool :=
  s == lit "ftp" || s == lit "file" || s == lit "http" || s == lit "https" || s == lit "ws" || s == lit "wss"

/-- `default_port` (25-35). -/
def defaultPort (s : List Nat) : Option Nat :=
  if s = lit "ftp" then some 21 else
  if s = lit "file" then none else
  if s = lit "http" then some 80 else
  if s = lit "https" then some 443 else
  if s = lit "ws" then some 80 else
  if s = lit "wss" then some 443 else none

/-- `is_special` (37-40). -/
def isSpecial (u : Url) : Bool := isSpecialScheme u.scheme

/-- `includes_credentials` (42-45). -/
def includesCredentials (u : Url) : Bool := !u.username.isEmpty || !u.password.isEmpty

/-- `operator==(host_base const&, std::u32string const&)` (host.hpp:138-151): `none` = the assertion. -/
def hostEq : Host → List Nat → Option Bool
  | .domain s, t => some (s == t)
  | .opaque s, t => some (s == t)
  | _, _ => none

/-- `cannot_have_username_or_password_or_port` (47-53): `none` = the assertion of the comparison. -/
def cannotHaveCredentials (u : Url) : Option Bool :=
  match u.host with
  | none => some true
  | some h =>
    match hostEq h [] with
    | none => none
    | some b => some (b || u.cannotBeBase || u.scheme == lit "file")

/-- `is_windows_drive_letter` (55-63). -/
def isWindowsDriveLetter : List Nat → Bool
  | [a, b] => isAsciiAlpha a && (b == 0x3A || b == 0x7C)
  | _ => false

/-- `is_normalized_windows_drive_letter` (65-73). -/
def isNormalizedWindowsDriveLetter : List Nat → Bool
  | [a, b] => isAsciiAlpha a && b == 0x3A
  | _ => false

/-- `starts_with_windows_drive_letter` (75-80) of the input from the pointer on. -/
def startsWithWindowsDriveLetter : List Nat → Bool
  | a :: b :: r =>
    isWindowsDriveLetter [a, b] &&
      match r with
      | [] => true
      | c :: _ => c == 0x2F || c == 0x5C || c == 0x3F || c == 0x23
  | _ => false

/-- `shorten_urls_path` (82-89). -/
def shortenPath (u : Url) : Url :=
  if u.path = [] then u else
  if u.scheme = lit "file" ∧ u.path.length = 1 ∧ isNormalizedWindowsDriveLetter (u.path.headD []) = true then u else
  { u with path := u.path.dropLast }

/-- `is_single_dot_path_segment` (200-203). -/
def isSingleDot (s : List Nat) : Bool := s == lit "." || s == lit "%2e" || s == lit "%2E"

/-- `||` of conditions that may fail an assertion. -/
def orElse : Option Bool → Option Bool → Option Bool
  | none, _ => none
  | some true, _ => some true
  | some false, b => b

/-- `is_double_dot_path_segment` (205-215). -/
def isDoubleDot (s : List Nat) : Option Bool :=
  orElse (some (s == lit "..")) <|
  orElse (isAsciiCaseInsensitiveMatch .c32 .c32 s (lit ".%2e")) <|
  orElse (isAsciiCaseInsensitiveMatch .c32 .c32 s (lit "%2e.")) <|
  isAsciiCaseInsensitiveMatch .c32 .c32 s (lit "%2e%2e")

/-- `url_parse_state` (url.hpp:322-345). -/
inductive State
  | schemeStart | scheme | noScheme | specialRelativeOrAuthority | pathOrAuthority | relative | relativeSlash
  | specialAuthoritySlashes | specialAuthorityIgnoreSlashes | authority | host | hostname | port | file | fileSlash | fileHost
  | pathStart | path | cannotBeABaseUrlPath | query | fragment
deriving DecidableEq, Repr

/-- What does not change during `run`: `m_input`, `m_base`, `m_override`, `domain_to_ascii` and the bound on the iterations
of `process_queue` in each call. -/
structure Ctx where
  input : List Nat
  base : Option Url
  override : Option State
  toAscii : List Nat → Ec → List Nat × Ec
  fuel : Nat

/-- The other members of `basic_url_parser` (url.hpp:395-411). `pos` is `pointer - m_input.data()`, which may be -1. -/
structure St where
  state : State
  url : Url
  buffer : List Nat := []
  atSignSeen : Bool := false
  insideBrackets : Bool := false
  passwordTokenSeen : Bool := false
  pos : Int := 0
  ec : Ec := none
  enc : Enc := .UTF_8

/-- What a state function does: `Failure`, `Return`, `Continue`; undefined behaviour; the bound is exceeded. -/
inductive Step
  | failure (s : St)
  | ret (s : St)
  | cont (s : St)
  | ub
  | more

/-- The code point at a position of the input. -/
def Ctx.at (x : Ctx) (i : Int) : Nat := if 0 ≤ i ∧ i < x.input.length then x.input.getD i.toNat 0 else 0x0A

/-- `std::distance(pointer, m_input.data() + m_input.size())`. -/
def Ctx.left (x : Ctx) (s : St) : Int := x.input.length - s.pos

/-- `*m_ec = url_error_name::ValidationError`. -/
def St.bad (s : St) : St := { s with ec := some .validationError }

/-- `if (b) *m_ec = url_error_name::ValidationError`. -/
def St.badIf (s : St) (b : Bool) : St := if b then s.bad else s

/-- `on_scheme_start_state` (444-466). -/
def onSchemeStart (x : Ctx) (s : St) (c : Nat) : Step :=
  if isAsciiAlpha c then
    match toAsciiLowercase .c32 .c32 [c] with
    | none => .ub
    | some l => .cont { s with buffer := s.buffer ++ l, state := .scheme }
  else if x.override = none then .cont { s with state := .noScheme, pos := s.pos - 1 }
  else .failure s.bad

/-- Steps 2.4-2.9 of `on_scheme_state` (499-528). -/
def afterScheme (x : Ctx) (s : St) : Step :=
  let s := { s with buffer := [] }
  if s.url.scheme = lit "file" then
    .cont { s.badIf (decide (x.left s < 3) || x.at (s.pos + 1) != 0x2F || x.at (s.pos + 2) != 0x2F) with state := .file }
  else if isSpecial s.url = true ∧ x.base.any (fun b => b.scheme == s.url.scheme) = true then
    .cont { s with state := .specialRelativeOrAuthority }
  else if isSpecial s.url then .cont { s with state := .specialAuthoritySlashes }
  else if 2 < x.left s ∧ x.at (s.pos + 1) = 0x2F then .cont { s with state := .pathOrAuthority, pos := s.pos + 1 }
  else .cont { s with
    url := { s.url with cannotBeBase := true, path := s.url.path ++ [[]] }, state := .cannotBeABaseUrlPath }

/-- Step 2.1 of `on_scheme_state` (479-489): whether to return; `none` = access to an absent host. -/
def schemeReturns (u : Url) (buffer : List Nat) : Option Bool :=
  if isSpecialScheme u.scheme = true ∧ isSpecialScheme buffer = false then some true else
  if isSpecialScheme u.scheme = false ∧ isSpecialScheme buffer = true then some true else
  if (includesCredentials u = true ∨ u.port.isSome = true) ∧ buffer = lit "file" then some true else
  if u.scheme = lit "file" then
    match u.host with
    | none => none
    | some h => some (h == .empty)
  else some false

/-- `on_scheme_state` (468-545). -/
def onScheme (x : Ctx) (s : St) (c : Nat) : Step :=
  if isAsciiAlphanumeric c || c == 0x2B || c == 0x2D || c == 0x2E then
    match toAsciiLowercase .c32 .c32 [c] with
    | none => .ub
    | some l => .cont { s with buffer := s.buffer ++ l }
  else if c = 0x3A then
    if x.override ≠ none then
      match schemeReturns s.url s.buffer with
      | none => .ub
      | some true => .ret s
      | some false =>
        let u := { s.url with scheme := s.buffer }
        let u := if u.port.isSome = true ∧ u.port = defaultPort u.scheme then { u with port := none } else u
        .ret { s with url := u }
    else afterScheme x { s with url := { s.url with scheme := s.buffer } }
  else if x.override = none then .cont { s with buffer := [], state := .noScheme, pos := -1 }
  else .failure s.bad

/-- `on_no_scheme_state` (547-579). -/
def onNoScheme (x : Ctx) (s : St) (c : Nat) : Step :=
  match x.base with
  | none => .failure s.bad
  | some b =>
    if b.cannotBeBase = true ∧ c ≠ 0x23 then .failure s.bad
    else if b.cannotBeBase = true ∧ c = 0x23 then
      .cont { s with
        url := { s.url with scheme := b.scheme, path := b.path, query := b.query, fragment := some [], cannotBeBase := true }
        state := .fragment }
    else if b.scheme ≠ lit "file" then .cont { s with state := .relative, pos := s.pos - 1 }
    else .cont { s with state := .file, pos := s.pos - 1 }

/-- `on_special_relative_or_authority_state` (581-598). -/
def onSpecialRelativeOrAuthority (x : Ctx) (s : St) (c : Nat) : Step :=
  if c = 0x2F ∧ 2 ≤ x.left s ∧ x.at (s.pos + 1) = 0x2F then
    .cont { s with state := .specialAuthorityIgnoreSlashes, pos := s.pos + 1 }
  else .cont { s.bad with state := .relative, pos := s.pos - 1 }

/-- `on_path_or_authority_state` (600-612). -/
def onPathOrAuthority (s : St) (c : Nat) : Step :=
  if c = 0x2F then .cont { s with state := .authority } else .cont { s with state := .path, pos := s.pos - 1 }

/-- `on_relative_state` (614-662). -/
def onRelative (x : Ctx) (s : St) (c : Nat) : Step :=
  match x.base with
  | none => .ub
  | some b =>
    let s := { s with url := { s.url with scheme := b.scheme } }
    if c = 0x2F then .cont { s with state := .relativeSlash }
    else if isSpecial s.url = true ∧ c = 0x5C then .cont { s.bad with state := .relativeSlash }
    else
      let u := { s.url with
        username := b.username, password := b.password, host := b.host, port := b.port, path := b.path, query := b.query }
      if c = 0x3F then .cont { s with url := { u with query := some [] }, state := .query }
      else if c = 0x23 then .cont { s with url := { u with fragment := some [] }, state := .fragment }
      else if c ≠ 0x0A then
        .cont { s with url := { u with query := none, path := u.path.dropLast }, state := .path, pos := s.pos - 1 }
      else .cont { s with url := u }

/-- `on_relative_slash_state` (664-688). -/
def onRelativeSlash (x : Ctx) (s : St) (c : Nat) : Step :=
  if isSpecial s.url = true ∧ (c = 0x2F ∨ c = 0x5C) then
    .cont { s.badIf (c == 0x5C) with state := .specialAuthorityIgnoreSlashes }
  else if c = 0x2F then .cont { s with state := .authority }
  else
    match x.base with
    | none => .ub
    | some b => .cont { s with
        url := { s.url with username := b.username, password := b.password, host := b.host, port := b.port }
        state := .path, pos := s.pos - 1 }

/-- `on_special_authority_slashes_state` (690-707). -/
def onSpecialAuthoritySlashes (x : Ctx) (s : St) (c : Nat) : Step :=
  if c = 0x2F ∧ 2 ≤ x.left s ∧ x.at (s.pos + 1) = 0x2F then
    .cont { s with state := .specialAuthorityIgnoreSlashes, pos := s.pos + 1 }
  else .cont { s.bad with state := .specialAuthorityIgnoreSlashes, pos := s.pos - 1 }

/-- `on_special_authority_ignore_slashes_state` (709-721). -/
def onSpecialAuthorityIgnoreSlashes (s : St) (c : Nat) : Step :=
  if ¬ (c = 0x2F ∨ c = 0x5C) then .cont { s with state := .authority, pos := s.pos - 1 } else .cont s.bad

/-- Step 1.4 of `on_authority_state` (739-753): user name, password and whether a colon was seen. -/
def credentials (fuel : Nat) : List Nat → Bool → List Nat → List Nat → Ends (List Nat × List Nat × Bool)
  | [], seen, user, pass => .stop (user, pass, seen)
  | c :: b, seen, user, pass =>
    if c = 0x3A ∧ seen = false then credentials fuel b true user pass
    else
      match utf8PercentEncodeCp fuel c isUserinfoSet with
      | .ub => .ub
      | .more => .more
      | .stop e => if seen then credentials fuel b seen user (pass ++ e) else credentials fuel b seen (user ++ e) pass

/-- The condition that ends authority, host and port (758, 817, 861). -/
def endsAuthority (u : Url) (c : Nat) : Bool :=
  c == 0x0A || c == 0x2F || c == 0x3F || c == 0x23 || (isSpecial u && c == 0x5C)

/-- `on_authority_state` (723-779). -/
def onAuthority (x : Ctx) (s : St) (c : Nat) : Step :=
  if c = 0x40 then
    let b := if s.atSignSeen then lit "%40" ++ s.buffer else s.buffer
    match credentials x.fuel b s.passwordTokenSeen s.url.username s.url.password with
    | .ub => .ub
    | .more => .more
    | .stop (user, pass, seen) => .cont { s.bad with
        atSignSeen := true, passwordTokenSeen := seen, url := { s.url with username := user, password := pass }, buffer := [] }
  else if endsAuthority s.url c then
    if s.atSignSeen = true ∧ s.buffer = [] then .failure s.bad
    else .cont { s with pos := s.pos - (s.buffer.length + 1), buffer := [], state := .host }
  else .cont { s with buffer := s.buffer ++ [c] }

/-- Steps 2.2-2.4 and 3.3-3.5 of `on_hostname_state` (804-812, 833-841): parse the host and go on with `k`. -/
def hostOf (x : Ctx) (s : St) (k : St → Step) : Step :=
  match parseHost x.toAscii x.fuel s.buffer (!isSpecial s.url) none with
  | .ub => .ub
  | .more => .more
  | .stop (h, ec) =>
    let s := if ec.isSome then { s with ec := ec } else s
    if h = .null then .failure s else k { s with url := { s.url with host := some h }, buffer := [] }

/-- `on_hostname_state` (786-854). There is no `else` behind step 1. -/
def onHostname (x : Ctx) (s : St) (c : Nat) : Step :=
  let s := if x.override ≠ none ∧ s.url.scheme = lit "file" then { s with pos := s.pos - 1, state := .fileHost } else s
  if c = 0x3A ∧ s.insideBrackets = false then
    if s.buffer = [] then .failure s.bad
    else hostOf x s fun s =>
      let s := { s with state := .port }
      if x.override = some .hostname then .ret s else .cont s
  else if endsAuthority s.url c then
    let s := { s with pos := s.pos - 1 }
    if isSpecial s.url = true ∧ s.buffer = [] then .failure s.bad
    else if x.override ≠ none ∧ s.buffer = [] ∧ (includesCredentials s.url = true ∨ s.url.port.isSome = true) then .ret s.bad
    else hostOf x s fun s =>
      let s := { s with state := .pathStart }
      if x.override ≠ none then .ret s else .cont s
  else
    let s := if c = 0x5B then { s with insideBrackets := true } else s
    let s := if c = 0x5D then { s with insideBrackets := false } else s
    .cont { s with buffer := s.buffer ++ [c] }

/-- The number in the buffer in `std::uint32_t` (868-869). -/
def portOf (b : List Nat) : Nat := b.foldl (fun port cp => (port * 10 + (cp - 0x30)) % 2 ^ 32) 0

/-- `on_port_state` (856-896). -/
def onPort (x : Ctx) (s : St) (c : Nat) : Step :=
  if isAsciiDigit c then .cont { s with buffer := s.buffer ++ [c] }
  else if endsAuthority s.url c = true ∨ x.override ≠ none then
    if s.buffer ≠ [] ∧ (5 < s.buffer.length ∨ 0xFFFF ≤ portOf s.buffer) then .failure s.bad
    else
      let s := if s.buffer ≠ [] then
          { s with
            url := { s.url with
              port := if some (portOf s.buffer) = defaultPort s.url.scheme then none else some (portOf s.buffer) }
            buffer := [] }
        else s
      if x.override ≠ none then .ret s else .cont { s with state := .pathStart, pos := s.pos - 1 }
  else .failure s.bad

/-- The input from the pointer on. -/
def Ctx.rest (x : Ctx) (s : St) : List Nat := x.input.drop s.pos.toNat

/-- `on_file_state` (898-955). -/
def onFile (x : Ctx) (s : St) (c : Nat) : Step :=
  let s := { s with url := { s.url with scheme := lit "file", host := some .empty } }
  if c = 0x2F ∨ c = 0x5C then .cont { s.badIf (c == 0x5C) with state := .fileSlash }
  else
    match x.base with
    | none => .cont { s with state := .path, pos := s.pos - 1 }
    | some b =>
      if b.scheme = lit "file" then
        let u := { s.url with host := b.host, path := b.path, query := b.query }
        if c = 0x3F then .cont { s with url := { u with query := some [] }, state := .query }
        else if c = 0x23 then .cont { s with url := { u with fragment := some [] }, state := .fragment }
        else if c ≠ 0x0A then
          let u := { u with query := none }
          if startsWithWindowsDriveLetter (x.rest s) = false then
            .cont { s with url := shortenPath u, state := .path, pos := s.pos - 1 }
          else .cont { s.bad with url := { u with path := [] }, state := .path, pos := s.pos - 1 }
        else .cont { s with url := u }
      else .cont { s with state := .path, pos := s.pos - 1 }

/-- `on_file_slash_state` (957-986). -/
def onFileSlash (x : Ctx) (s : St) (c : Nat) : Step :=
  if c = 0x2F ∨ c = 0x5C then .cont { s.badIf (c == 0x5C) with state := .fileHost }
  else
    match x.base with
    | none => .cont { s with state := .path, pos := s.pos - 1 }
    | some b =>
      if b.scheme = lit "file" then
        let u := { s.url with host := b.host }
        let u := if startsWithWindowsDriveLetter (x.rest s) = false ∧ b.path ≠ [] ∧
            isNormalizedWindowsDriveLetter (b.path.headD []) = true then { u with path := u.path ++ [b.path.headD []] } else u
        .cont { s with url := u, state := .path, pos := s.pos - 1 }
      else .cont { s with state := .path, pos := s.pos - 1 }

/-- `on_file_host_state` (988-1034). -/
def onFileHost (x : Ctx) (s : St) (c : Nat) : Step :=
  if c = 0x0A ∨ c = 0x2F ∨ c = 0x5C ∨ c = 0x3F ∨ c = 0x23 then
    let s := { s with pos := s.pos - 1 }
    if x.override = none ∧ isWindowsDriveLetter s.buffer = true then .cont { s.bad with state := .path }
    else if s.buffer = [] then
      let s := { s with url := { s.url with host := some .empty } }
      if x.override ≠ none then .ret s else .cont { s with state := .pathStart }
    else
      match parseHost x.toAscii x.fuel s.buffer (!isSpecial s.url) none with
      | .ub => .ub
      | .more => .more
      | .stop (h, ec) =>
        let s := if ec.isSome then { s with ec := ec } else s
        if h = .null then .failure s
        else
          match hostEq h (lit "localhost") with
          | none => .ub
          | some b =>
            let s := { s with url := { s.url with host := some (if b then .empty else h) } }
            if x.override ≠ none then .ret s else .cont { s with buffer := [], state := .pathStart }
  else .cont { s with buffer := s.buffer ++ [c] }

/-- `on_path_start_state` (1036-1071). -/
def onPathStart (x : Ctx) (s : St) (c : Nat) : Step :=
  if isSpecial s.url then
    let s := { s.badIf (c == 0x5C) with state := .path }
    if ¬ (c = 0x2F ∨ c = 0x5C) then .cont { s with pos := s.pos - 1 } else .cont s
  else if x.override = none ∧ c = 0x3F then .cont { s with url := { s.url with query := some [] }, state := .query }
  else if x.override = none ∧ c = 0x23 then .cont { s with url := { s.url with fragment := some [] }, state := .fragment }
  else if c ≠ 0x0A then
    let s := { s with state := .path }
    if c ≠ 0x2F then .cont { s with pos := s.pos - 1 } else .cont s
  else .cont s

/-- Steps 1.2-1.4 of `on_path_state` (1082-1104): the path with the segment of the buffer. `slash`: the segment ends in a
slash. `none` = a failed assertion of the comparison. -/
def pushSegment (u : Url) (buffer : List Nat) (slash : Bool) : Option Url :=
  match isDoubleDot buffer with
  | none => none
  | some true =>
    let u := shortenPath u
    some (if slash then u else { u with path := u.path ++ [[]] })
  | some false =>
    if isSingleDot buffer then some (if slash then u else { u with path := u.path ++ [[]] })
    else
      let buffer := if u.scheme = lit "file" ∧ u.path = [] ∧ isWindowsDriveLetter buffer = true then buffer.set 1 0x3A else buffer
      some { u with path := u.path ++ [buffer] }

/-- `on_path_state` (1073-1135). The test of `%` looks at one digit only. -/
def onPath (x : Ctx) (s : St) (c : Nat) : Step :=
  let slash := c == 0x2F || (isSpecial s.url && c == 0x5C)
  if (c == 0x0A || slash || (x.override.isNone && (c == 0x3F || c == 0x23))) = true then
    let s := s.badIf (isSpecial s.url && c == 0x5C)
    match pushSegment s.url s.buffer slash with
    | none => .ub
    | some u =>
      let s := { s with url := u, buffer := [] }
      if c = 0x3F then .cont { s with url := { u with query := some [] }, state := .query }
      else if c = 0x23 then .cont { s with url := { u with fragment := some [] }, state := .fragment }
      else .cont s
  else
    let s := s.badIf (!isUrlCodePoint c && c != 0x25)
    let s := s.badIf (c == 0x25 && (decide (x.left s < 2) || !isAsciiHexDigit (x.at (s.pos + 1))))
    match utf8PercentEncodeCp x.fuel c isPathSet with
    | .ub => .ub
    | .more => .more
    | .stop e => .cont { s with buffer := s.buffer ++ e }

/-- Whether a `%` is not followed by two digits (1157, 1197, 1216). -/
def Ctx.badPercent (x : Ctx) (s : St) (c : Nat) : Bool :=
  c == 0x25 && (decide (x.left s < 3) || !isAsciiHexDigit (x.at (s.pos + 1)) || !isAsciiHexDigit (x.at (s.pos + 2)))

/-- `on_cannot_be_a_base_url_path_state` (1137-1166). -/
def onCannotBeABase (x : Ctx) (s : St) (c : Nat) : Step :=
  if c = 0x3F then .cont { s with url := { s.url with query := some [] }, state := .query }
  else if c = 0x23 then .cont { s with url := { s.url with fragment := some [] }, state := .fragment }
  else
    let s := s.badIf (c != 0x0A && !isUrlCodePoint c && c != 0x25)
    let s := s.badIf (x.badPercent s c)
    if c ≠ 0x0A then
      match utf8PercentEncodeCp x.fuel c isC0ControlSet with
      | .ub => .ub
      | .more => .more
      | .stop e =>
        match s.url.path with
        | [] => .ub
        | p :: ps => .cont { s with url := { s.url with path := (p ++ e) :: ps } }
    else .cont s

/-- `on_query_state` (1168-1206). -/
def onQuery (x : Ctx) (s : St) (c : Nat) : Step :=
  let s := if s.enc ≠ .UTF_8 ∧ (isSpecial s.url = false ∨ s.url.scheme = lit "ws" ∨ s.url.scheme = lit "wss") then
    { s with enc := .UTF_8 } else s
  if (x.override = none ∧ c = 0x23) ∨ c = 0x0A then
    match percentEncodeAfterEncoding x.fuel s.enc s.buffer (if isSpecial s.url then isSpecialQuerySet else isQuerySet) false with
    | .ub => .ub
    | .more => .more
    | .stop e =>
      match s.url.query with
      | none => .ub
      | some q =>
        let s := { s with url := { s.url with query := some (q ++ e) }, buffer := [] }
        if c = 0x23 then .cont { s with url := { s.url with fragment := some [] }, state := .fragment } else .cont s
  else
    let s := s.badIf (!isUrlCodePoint c && c != 0x25)
    let s := s.badIf (x.badPercent s c)
    .cont { s with buffer := s.buffer ++ [c] }

/-- `on_fragment_state` (1208-1225). -/
def onFragment (x : Ctx) (s : St) (c : Nat) : Step :=
  if c ≠ 0x0A then
    let s := s.badIf (!isUrlCodePoint c && c != 0x25)
    let s := s.badIf (x.badPercent s c)
    match utf8PercentEncodeCp x.fuel c isFragmentSet with
    | .ub => .ub
    | .more => .more
    | .stop e =>
      match s.url.fragment with
      | none => .ub
      | some f => .cont { s with url := { s.url with fragment := some (f ++ e) } }
  else .cont s

/-- The switch of `run` (359-425). -/
def step (x : Ctx) (s : St) : Step :=
  let c := x.at s.pos
  match s.state with
  | .schemeStart => onSchemeStart x s c
  | .scheme => onScheme x s c
  | .noScheme => onNoScheme x s c
  | .specialRelativeOrAuthority => onSpecialRelativeOrAuthority x s c
  | .pathOrAuthority => onPathOrAuthority s c
  | .relative => onRelative x s c
  | .relativeSlash => onRelativeSlash x s c
  | .specialAuthoritySlashes => onSpecialAuthoritySlashes x s c
  | .specialAuthorityIgnoreSlashes => onSpecialAuthorityIgnoreSlashes s c
  | .authority => onAuthority x s c
  | .host => onHostname x s c
  | .hostname => onHostname x s c
  | .port => onPort x s c
  | .file => onFile x s c
  | .fileSlash => onFileSlash x s c
  | .fileHost => onFileHost x s c
  | .pathStart => onPathStart x s c
  | .path => onPath x s c
  | .cannotBeABaseUrlPath => onCannotBeABase x s c
  | .query => onQuery x s c
  | .fragment => onFragment x s c

/-- `run` (353-442), at most `n` iterations. The flag: whether a record is returned. -/
def run (x : Ctx) : Nat → St → Ends (Bool × St)
  | 0, _ => .more
  | n + 1, s =>
    match step x s with
    | .ub => .ub
    | .more => .more
    | .failure s => .stop (false, s)
    | .ret s => .stop (false, s)
    | .cont s => if s.pos < x.input.length then run x n { s with pos := s.pos + 1 } else .stop (true, s)

/-- The constructor of `basic_url_parser` (292-351) without a given URL: `m_input`, and whether something was left out. -/
def trimmed (s : List Nat) : List Nat := ((s.dropWhile isC0ControlOrSpace).reverse.dropWhile isC0ControlOrSpace).reverse

/-- Step 4 of the constructor (334-339). -/
def cleaned (s : List Nat) : List Nat := s.filter fun c => !isAsciiTabOrNewline c

/-- `basic_url_parser(input, ec, base, name)` and `run` (292-442), at most `n` iterations. -/
def parse (toAscii : List Nat → Ec → List Nat × Ec) (fuel n : Nat) (input : List Nat) (base : Option Url) (name : Enc) :
    Ends (Bool × St) :=
  let t := cleaned (trimmed input)
  run ⟨t, base, none, toAscii, fuel⟩ n
    { state := .schemeStart, url := {}, enc := outputEncoding name, ec := if t ≠ input then some .validationError else none }

/-- `basic_url_parser(input, ec, nullptr, UTF_8, &url, state)` and `run`, as the setters of `basic_url` call it (api.hpp). -/
def parseInto (toAscii : List Nat → Ec → List Nat × Ec) (fuel n : Nat) (input : List Nat) (url : Url) (state : State) :
    Ends (Bool × St) :=
  let t := cleaned input
  run ⟨t, none, some state, toAscii, fuel⟩ n { state := state, url := url, ec := if t ≠ input then some .validationError else none }

/-- `serialize_url` (1243-1306). `none` = a failure host, or `front()` of an empty path. -/
def serializeUrl (u : Url) (excludeFragment : Bool) : Option (List Nat) :=
  let authority : Option (List Nat) :=
    match u.host with
    | none => some []
    | some h =>
      match serializeHost h with
      | none => none
      | some t => some ([0x2F, 0x2F] ++
          (if includesCredentials u then u.username ++ (if u.password ≠ [] then 0x3A :: u.password else []) ++ [0x40] else []) ++
          t ++ (match u.port with | none => [] | some p => 0x3A :: serializeInteger p))
  let path : Option (List Nat) :=
    if u.cannotBeBase then u.path.head?
    else some ((if u.host = none ∧ 1 < u.path.length ∧ u.path.headD [] = [] then [0x2F, 0x2E] else []) ++
      u.path.flatMap fun p => 0x2F :: p)
  match authority, path with
  | some a, some p => some (u.scheme ++ [0x3A] ++ a ++ p ++ (match u.query with | none => [] | some q => 0x3F :: q) ++
      (match excludeFragment, u.fragment with | false, some f => 0x23 :: f | _, _ => []))
  | _, _ => none

/-! ### `basic_url` (api.hpp). A setter leaves the record as the parser left it, whatever `run` returned. -/

/-- The record after `run`. -/
def after : Ends (Bool × St) → Ends Url
  | .stop (_, s) => .stop s.url
  | .ub => .ub
  | .more => .more

/-- The constructors and the `href` setter (api.hpp:33-76, 88-100): `none` = an exception. -/
def create (toAscii : List Nat → Ec → List Nat × Ec) (fuel n : Nat) (input : List Nat) (base : Option Url) : Ends (Option Url) :=
  match parse toAscii fuel n input base .UTF_8 with
  | .stop (b, s) => .stop (if b then some s.url else none)
  | .ub => .ub
  | .more => .more

/-- The `protocol` setter (129-136). -/
def setProtocol (toAscii : List Nat → Ec → List Nat × Ec) (fuel n : Nat) (u : Url) (s : List Nat) : Ends Url :=
  after (parseInto toAscii fuel n (s ++ [0x3A]) u .schemeStart)

/-- The `username` setter (148-153) with `set_username` (url.cpp:1227-1230). -/
def setUsername (fuel : Nat) (u : Url) (s : List Nat) : Ends Url :=
  match cannotHaveCredentials u with
  | none => .ub
  | some true => .stop u
  | some false =>
    match utf8PercentEncode fuel s isUserinfoSet with
    | .stop e => .stop { u with username := e }
    | .ub => .ub
    | .more => .more

/-- The `password` setter (165-170) with `set_password` (url.cpp:1232-1235). -/
def setPassword (fuel : Nat) (u : Url) (s : List Nat) : Ends Url :=
  match cannotHaveCredentials u with
  | none => .ub
  | some true => .stop u
  | some false =>
    match utf8PercentEncode fuel s isUserinfoSet with
    | .stop e => .stop { u with password := e }
    | .ub => .ub
    | .more => .more

/-- The `host` setter (192-199). -/
def setHost (toAscii : List Nat → Ec → List Nat × Ec) (fuel n : Nat) (u : Url) (s : List Nat) : Ends Url :=
  if u.cannotBeBase then .stop u else after (parseInto toAscii fuel n s u .host)

/-- The `hostname` setter (215-222). -/
def setHostname (toAscii : List Nat → Ec → List Nat × Ec) (fuel n : Nat) (u : Url) (s : List Nat) : Ends Url :=
  if u.cannotBeBase then .stop u else after (parseInto toAscii fuel n s u .hostname)

/-- The `port` setter (240-251). -/
def setPort (toAscii : List Nat → Ec → List Nat × Ec) (fuel n : Nat) (u : Url) (s : List Nat) : Ends Url :=
  match cannotHaveCredentials u with
  | none => .ub
  | some true => .stop u
  | some false => if s = [] then .stop { u with port := none } else after (parseInto toAscii fuel n s u .port)

/-- The `pathname` setter (273-281). -/
def setPathname (toAscii : List Nat → Ec → List Nat × Ec) (fuel n : Nat) (u : Url) (s : List Nat) : Ends Url :=
  if u.cannotBeBase then .stop u else after (parseInto toAscii fuel n s { u with path := [] } .pathStart)

/-- Removes one leading character (308, 341). -/
def withoutFirst (c : Nat) (s : List Nat) : List Nat := if s.head? = some c then s.tail else s

/-- The `search` setter (300-313). -/
def setSearch (toAscii : List Nat → Ec → List Nat × Ec) (fuel n : Nat) (u : Url) (s : List Nat) : Ends Url :=
  if s = [] then .stop { u with query := none }
  else after (parseInto toAscii fuel n (withoutFirst 0x3F s) { u with query := some [] } .query)

/-- The `hash` setter (332-346). -/
def setHash (toAscii : List Nat → Ec → List Nat × Ec) (fuel n : Nat) (u : Url) (s : List Nat) : Ends Url :=
  if s = [] then .stop { u with fragment := none }
  else after (parseInto toAscii fuel n (withoutFirst 0x23 s) { u with fragment := some [] } .fragment)

end Verif.Model.Url
