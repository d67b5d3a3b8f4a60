import Verif.Model.Percent
/-
Model of lib/whatwg/url/host.cpp and include/wordring/whatwg/url/host.hpp: hosts. Strings are `std::u32string`s, lists of
code points. A `std::error_code& ec` is a value handed through.
-/
namespace Verif.Model.Host
open Verif.Model.Infra Verif.Model.Unicode Verif.Model.Coder Verif.Model.Legacy Verif.Model.Percent

/-- `url_error_name` (url_defs.hpp:7-14). Every enumerator is different from zero. -/
inductive Err
  | idnaTranslationFailed | parseFailed | validationError
deriving DecidableEq, Repr

/-- `std::error_code`; `none` is the one that converts to `false`. -/
abbrev Ec := Option Err

/-- `host_base` (host.hpp:84-136). `null` is `std::monostate`, a failure. -/
inductive Host
  | null
  | domain (s : List Nat)
  | ipv4 (n : Nat)
  | ipv6 (a : List Nat)
  | opaque (s : List Nat)
  | empty
deriving DecidableEq, Repr

/-- `is_forbidden_host_code_point` (host.hpp:163-184). -/
def isForbidden (cp : Nat) : Bool :=
  [0x00, 0x09, 0x0A, 0x0D, 0x20, 0x23, 0x25, 0x2F, 0x3A, 0x3F, 0x40, 0x5B, 0x5C, 0x5D].contains cp

/-- A character `std::from_chars` takes for a digit of the base. -/
def isDigitOf (base c : Nat) : Bool := isAsciiHexDigit c && decide (digitVal c < base)

/-- `std::from_chars` into a `std::uint32_t`: `none` = the variable is left as it was (no digit in front, or out of range). -/
def fromChars32 (base : Nat) (s : List Nat) : Option Nat :=
  let t := s.takeWhile (isDigitOf base)
  if t = [] then none else if fromChars base t < 2 ^ 32 then some (fromChars base t) else none

/-- Steps 5-8 of `parse_ipv4_number` (host.cpp:230-244). The outer `none` is the use of the uninitialised `i`. -/
def parseIpv4Digits (s : List Nat) (r : Nat) (validationError : Bool) : Option (Option Nat × Bool) :=
  if s = [] then some (none, validationError) else
  let sv := if r = 8 then "012345678" else if r = 10 then "0123456789" else "0123456789abcdefABCDEF"
  if s.all (fun cp => (sv.toList.map Char.toNat).contains cp) then
    match fromChars32 r (s.map (· % 256)) with
    | none => none
    | some i => some (some i, validationError)
  else some (none, validationError)

/-- `parse_ipv4_number` (host.cpp:209-245). -/
def parseIpv4Number (s : List Nat) : Option (Option Nat × Bool) :=
  match s with
  | a :: b :: t =>
    if a = 0x30 ∧ (b = 0x78 ∨ b = 0x58) then parseIpv4Digits t 16 true
    else if a = 0x30 then parseIpv4Digits (b :: t) 8 true
    else parseIpv4Digits (a :: b :: t) 10 false
  | _ => parseIpv4Digits s 10 false

/-- Step 6 of `parse_ipv4` (host.cpp:165-179): `some none` is the return of an opaque host. -/
def parseIpv4Parts : List (List Nat) → Bool → List Nat → Option (Option (List Nat × Bool))
  | [], validationError, numbers => some (some (numbers, validationError))
  | part :: parts, validationError, numbers =>
    if part = [] then some none else
    match parseIpv4Number part with
    | none => none
    | some (none, _) => some none
    | some (some n, e) => parseIpv4Parts parts (if e then true else validationError) (numbers ++ [n])

/-- Step 14 of `parse_ipv4` (200-204) in `std::uint32_t`. -/
def addParts : List Nat → Nat → Nat → Nat
  | [], _, ipv4 => ipv4
  | n :: ns, counter, ipv4 => addParts ns (counter + 1) ((ipv4 + n * 256 ^ (3 - counter)) % 2 ^ 32)

/-- `parse_ipv4` (host.cpp:149-207). `none` = undefined behaviour, also `back()` of the empty `numbers` (188). The powers of
256 are exact in `double`. -/
def parseIpv4 (s : List Nat) (ec : Ec) : Option (Host × Ec) :=
  match strictlySplit .c32 0x2E s with
  | none => none
  | some parts =>
    let last := parts.getLast? = some []
    let parts := if last ∧ 1 < parts.length then parts.dropLast else parts
    if 4 < parts.length then some (.opaque s, ec) else
    match parseIpv4Parts parts (decide last) [] with
    | none => none
    | some none => some (.opaque s, ec)
    | some (some (numbers, validationError)) =>
      let ec := if validationError then some .validationError else ec
      let ec := if numbers.any (fun n => decide (255 < n)) then some .validationError else ec
      match numbers.getLast? with
      | none => none
      | some back =>
        if numbers.dropLast.any (fun n => decide (255 < n)) then some (.null, ec) else
        if 256 ^ (5 - numbers.length) ≤ back then some (.null, some .validationError) else
        some (.ipv4 (addParts numbers.dropLast 0 back), ec)

/-- Step 6.4 of `parse_ipv6` (host.cpp:288-298): the value, the length and the rest. -/
def readPiece : Nat → Nat → List Nat → Nat × Nat × List Nat
  | length, value, c :: s =>
    if length < 4 ∧ isAsciiHexDigit c = true then
      readPiece (length + 1)
        (value * 0x10 + (if 0x30 ≤ c ∧ c ≤ 0x39 then c - 0x30 else if 0x61 ≤ c ∧ c ≤ 0x66 then c - 0x61 + 10 else c - 0x41 + 10)) s
    else (value, length, c :: s)
  | length, value, [] => (value, length, [])

/-- Step 7 of `parse_ipv6` (401-411): `swaps` times at most. -/
def swapLoop (compress : Nat) : Nat → Nat → List Nat → List Nat
  | _, 0, address => address
  | pieceIndex, swaps + 1, address =>
    if pieceIndex = 0 then address else
    swapLoop compress (pieceIndex - 1) swaps
      ((address.set pieceIndex (address.getD (compress + swaps) 0)).set (compress + swaps) (address.getD pieceIndex 0))

/-- Steps 7-9 of `parse_ipv6` (400-419). -/
def finishIpv6 (address : List Nat) (pieceIndex : Nat) (compress : Option Nat) (ec : Ec) : Host × Ec :=
  match compress with
  | some c => (.ipv6 (swapLoop c 7 (pieceIndex - c) address), ec)
  | none => if pieceIndex ≠ 8 then (.null, some .validationError) else (.ipv6 address, ec)

/-- Step 6.5 of `parse_ipv6` (299-376) at a `.`, `text` being the input from the beginning of the piece. The first digit is
written through an empty `std::optional` (345), which is undefined; everything behind is unreachable. -/
def embeddedIpv4 (length pieceIndex : Nat) (text : List Nat) : Ends (Host × Ec) :=
  if length = 0 then .stop (.null, some .validationError) else
  if 6 < pieceIndex then .stop (.null, some .validationError) else
  match text with
  | [] => .stop (.null, some .validationError)
  | c :: _ => if isAsciiDigit c = false then .stop (.null, some .validationError) else .ub

/-- Step 6 of `parse_ipv6` (269-399), at most `fuel` iterations, on the rest of the input. -/
def ipv6Loop (ec : Ec) : Nat → List Nat → Nat → Option Nat → List Nat → Ends (Host × Ec)
  | _, address, pieceIndex, compress, [] => .stop (finishIpv6 address pieceIndex compress ec)
  | 0, _, _, _, _ :: _ => .more
  | fuel + 1, address, pieceIndex, compress, c :: s =>
    if pieceIndex = 8 then .stop (.null, ec) else
    if c = 0x3A then
      match compress with
      | some _ => .stop (.null, some .validationError)
      | none => ipv6Loop ec fuel address (pieceIndex + 1) (some (pieceIndex + 1)) s
    else
      match readPiece 0 0 (c :: s) with
      | (value, length, rest) =>
        match rest with
        | [] => ipv6Loop ec fuel (address.set pieceIndex value) (pieceIndex + 1) compress []
        | d :: r =>
          if d = 0x2E then embeddedIpv4 length pieceIndex (c :: s)
          else if d = 0x3A then
            if r = [] then .stop (.null, some .validationError)
            else ipv6Loop ec fuel (address.set pieceIndex value) (pieceIndex + 1) compress r
          else .stop (.null, some .validationError)

/-- `parse_ipv6` (host.cpp:247-420). -/
def parseIpv6 (fuel : Nat) (s : List Nat) (ec : Ec) : Ends (Host × Ec) :=
  match s with
  | 0x3A :: t =>
    match t with
    | 0x3A :: r => ipv6Loop ec fuel (List.replicate 8 0) 1 (some 1) r
    | _ => .stop (.null, some .validationError)
  | _ => ipv6Loop ec fuel (List.replicate 8 0) 0 none s

/-- `is_url_code_points_` (427-456). -/
def isUrlCodePoint (cp : Nat) : Bool :=
  isAsciiAlphanumeric cp ||
  [0x21, 0x24, 0x26, 0x27, 0x28, 0x29, 0x2A, 0x2B, 0x2C, 0x2D, 0x2E, 0x2F, 0x3A, 0x3B, 0x3D, 0x3F, 0x40, 0x5F, 0x7E].contains cp ||
  (decide (0xA0 ≤ cp) && decide (cp ≤ 0x10FFFD) && !isSurrogate cp && !isNoncharacter cp)

/-- Step 3 of `parse_opaque_host` (474-508): whether it sets `ec`. -/
def percentCheck : Nat → List Nat → Bool
  | _, [] => false
  | state, cp :: s =>
    match state with
    | 0 => if cp = 0x25 then if s.length + 1 < 3 then true else percentCheck 1 s else percentCheck 0 s
    | 1 => if isAsciiHexDigit cp = false then true else percentCheck 2 s
    | _ => if isAsciiHexDigit cp = false then true else percentCheck 0 s

/-- `parse_opaque_host` (459-511). -/
def parseOpaqueHost (fuel : Nat) (s : List Nat) (ec : Ec) : Ends (Host × Ec) :=
  if s.any (fun cp => isForbidden cp && cp != 0x25) then .stop (.null, some .validationError) else
  let ec := if s.any (fun cp => !isUrlCodePoint cp && cp != 0x25) then some .validationError else ec
  let ec := if percentCheck 0 s then some .validationError else ec
  match utf8PercentEncode fuel s isC0ControlSet with
  | .stop t => .stop (.opaque t, ec)
  | .ub => .ub
  | .more => .more

/-- `parse_host` (104-145). `toAscii` is `domain_to_ascii` (19-37), which calls ICU. -/
def parseHost (toAscii : List Nat → Ec → List Nat × Ec) (fuel : Nat) (s : List Nat) (isNotSpecial : Bool) (ec : Ec) :
    Ends (Host × Ec) :=
  if s.head? = some 0x5B then
    if s.getLast? ≠ some 0x5D then .stop (.null, some .parseFailed) else parseIpv6 fuel (s.drop 1).dropLast ec
  else if isNotSpecial then parseOpaqueHost fuel s ec
  else if s = [] then .ub
  else
    match stringPercentDecode fuel s with
    | .ub => .ub
    | .more => .more
    | .stop tmp =>
      match utf8DecodeWithoutBom fuel (toQueue tmp) [] with
      | .ub => .ub
      | .more => .more
      | .stop (_, _, out) =>
        match toAscii (fromQueue out) ec with
        | (_, some e) => .stop (.null, some e)
        | (asciiDomain, none) =>
          if asciiDomain.any isForbidden then .stop (.null, some .parseFailed) else
          match parseIpv4 asciiDomain none with
          | none => .ub
          | some (.null, ec) => .stop (.null, ec)
          | some (.ipv4 n, ec) => .stop (.ipv4 n, ec)
          | some (_, ec) => .stop (.domain asciiDomain, ec)

/-- `serialize_ipv4` (535-555): the loop runs four times. -/
def serializeIpv4Loop : Nat → Nat → List Nat → List Nat
  | 0, _, output => output
  | k + 1, n, output =>
    let output := toChars 10 (n % 256) ++ output
    serializeIpv4Loop k (n / 256) (if k ≠ 0 then 0x2E :: output else output)

/-- `serialize_ipv4` (535-555). -/
def serializeIpv4 (n : Nat) : List Nat := serializeIpv4Loop 4 n []

/-- Steps 2-3 of `serialize_ipv6` (561-582): `longer` and `tail`. A zero in the last piece sets `i` to 8, one behind it. -/
def findCompress : List Nat → Nat → Nat → Nat → Nat → Nat × Nat
  | [], _, longer, _, tail => (longer, tail)
  | p :: ps, i, longer, length, tail =>
    if p = 0 then
      if i = 7 then if longer < length + 1 then (length + 1, 8) else (longer, tail)
      else findCompress ps (i + 1) longer (length + 1) tail
    else if longer < length then findCompress ps (i + 1) length 0 i
    else findCompress ps (i + 1) longer length tail

/-- `compress` of `serialize_ipv6` (583). -/
def compressOf (a : List Nat) : Option Nat :=
  match findCompress a 0 0 0 0 with
  | (longer, tail) => if 2 ≤ longer then some (tail - longer) else none

/-- Step 5 of `serialize_ipv6` (586-607). -/
def serializeIpv6Loop (compress : Option Nat) : Nat → Bool → List Nat → List Nat
  | _, _, [] => []
  | i, ignore0, p :: ps =>
    if ignore0 = true ∧ p = 0 then serializeIpv6Loop compress (i + 1) ignore0 ps
    else if compress = some i then
      (if i = 0 then [0x3A, 0x3A] else [0x3A]) ++ serializeIpv6Loop compress (i + 1) true ps
    else toChars 16 p ++ (if i ≠ 7 then [0x3A] else []) ++ serializeIpv6Loop compress (i + 1) false ps

/-- `serialize_ipv6` (557-610) of the eight pieces. -/
def serializeIpv6 (a : List Nat) : List Nat := serializeIpv6Loop (compressOf a) 0 false a

/-- `serialize_host` (513-533). `none` = the assertion. -/
def serializeHost : Host → Option (List Nat)
  | .ipv4 n => some (serializeIpv4 n)
  | .ipv6 a => some ([0x5B] ++ serializeIpv6 a ++ [0x5D])
  | .domain s => some s
  | .opaque s => some s
  | .empty => some []
  | .null => none

/-- `is_valid_ipv4_address_string` (83-102) behind the splitting: `none` = use of the uninitialised `i`. -/
def validParts : List (List Nat) → Option Bool
  | [] => some true
  | c :: v =>
    if ¬ (1 ≤ c.length ∧ c.length ≤ 4) then some false else
    match fromChars32 10 (c.map (· % 256)) with
    | none => none
    | some i => if 255 < i then some false else validParts v

/-- Splitting at dots (`boost::algorithm::split`, no token compression). -/
def splitDots : List Nat → List Nat → List (List Nat)
  | cur, [] => [cur]
  | cur, c :: s => if c = 0x2E then cur :: splitDots [] s else splitDots (cur ++ [c]) s

/-- `is_valid_ipv4_address_string` (83-102). -/
def isValidIpv4AddressString (s : List Nat) : Option Bool :=
  let v := splitDots [] s
  if v.length ≠ 4 then some false else validParts v

end Verif.Model.Host
