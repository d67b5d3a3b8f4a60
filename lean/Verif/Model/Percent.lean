import Verif.Model.Legacy
/-
Model of include/wordring/whatwg/url/infra.hpp: percent encoding. Byte strings are lists of byte values, `std::u32string`s
lists of code points.
-/
namespace Verif.Model.Percent
open Verif.Model.Infra Verif.Model.Unicode Verif.Model.Coder Verif.Model.Legacy

/-- The value of a digit for `std::from_chars`. -/
def digitVal (c : Nat) : Nat := if c ≤ 0x39 then c - 0x30 else if c ≤ 0x46 then c - 0x41 + 10 else c - 0x61 + 10

/-- `std::from_chars` over digits of the base, the number unbounded (callers check its width). -/
def fromChars (base : Nat) (s : List Nat) : Nat := s.foldl (fun n c => n * base + digitVal c) 0

/-- `serialize_integer` (infra.hpp:35-42); ten characters are enough for every `unsigned`. -/
def serializeInteger (cp : Nat) : List Nat := toChars 10 cp

/-- `starts_with_percent_encoded_byte` (55-61). -/
def startsWithPercentEncodedByte : List Nat → Bool
  | a :: b :: c :: _ => a == 0x25 && isAsciiHexDigit b && isAsciiHexDigit c
  | _ => false

/-- `is_percent_encoded_byte` (67-72). -/
def isPercentEncodedByte (s : List Nat) : Bool := s.length == 3 && startsWithPercentEncodedByte s

/-- `percent_encode` (78-86) to a `std::string`: the digits are written behind `%` over `00`; one digit alone is swapped
with the zero behind it. `none` = failed assertion. -/
def percentEncode (byte : Nat) : Option (List Nat) :=
  match toChars 16 byte with
  | [a] => toAsciiUppercase .c8 .c8 [0x25, 0x30, a]
  | [a, b] => toAsciiUppercase .c8 .c8 [0x25, a, b]
  | _ => none

/-- `percent_decode` (94-113). Two hexadecimal digits fit `std::uint8_t`. -/
def percentDecode : List Nat → List Nat
  | a :: b :: c :: r =>
    if startsWithPercentEncodedByte (a :: b :: c :: r) then fromChars 16 [b, c] :: percentDecode r
    else a :: percentDecode (b :: c :: r)
  | a :: r => a :: percentDecode r
  | [] => []

/-- `string_percent_decode` (121-133), at most `fuel` iterations of `process_queue`. -/
def stringPercentDecode (fuel : Nat) (s : List Nat) : Ends (List Nat) :=
  match utf8Encode fuel (toQueue s) [] with
  | .stop (_, _, out) => .stop (percentDecode (fromQueue out))
  | .ub => .ub
  | .more => .more

/-- `is_c0_control_percent_encode_set` (139-142). -/
def isC0ControlSet (cp : Nat) : Bool := isC0Control cp || decide (0x7E < cp)

/-- `is_fragment_percent_encode_set` (148-161). -/
def isFragmentSet (cp : Nat) : Bool := isC0ControlSet cp || [0x20, 0x22, 0x3C, 0x3E, 0x60].contains cp

/-- `is_query_percent_encode_set` (167-180). -/
def isQuerySet (cp : Nat) : Bool := isC0ControlSet cp || [0x20, 0x22, 0x23, 0x3C, 0x3E].contains cp

/-- `is_special_query_percent_encode_set` (186-190). -/
def isSpecialQuerySet (cp : Nat) : Bool := isQuerySet cp || cp == 0x27

/-- `is_path_percent_encode_set` (196-208). -/
def isPathSet (cp : Nat) : Bool := isFragmentSet cp || [0x23, 0x3F, 0x7B, 0x7D].contains cp

/-- `is_userinfo_percent_encode_set` (214-232). -/
def isUserinfoSet (cp : Nat) : Bool :=
  isPathSet cp || [0x2F, 0x3A, 0x3B, 0x3D, 0x40, 0x5B, 0x5C, 0x5D, 0x5E, 0x7C].contains cp

/-- `is_component_percent_encode_set` (238-251). -/
def isComponentSet (cp : Nat) : Bool := isUserinfoSet cp || [0x24, 0x25, 0x26, 0x2B, 0x2C].contains cp

/-- `application_x_www_form_urlencoded_percent_encode_set` (257-270). -/
def isFormSet (cp : Nat) : Bool := isComponentSet cp || [0x21, 0x27, 0x28, 0x29, 0x7E].contains cp

/-- Step 5.3 of `percent_encode_after_encoding` (299-319). -/
def encodeBytes (set : Nat → Bool) (plus : Bool) : List Nat → Option (List Nat)
  | [] => some []
  | v :: s =>
    let byte := v % 256
    let piece := if plus = true ∧ byte = 0x20 then some [0x2B] else if set byte = false then some [byte] else percentEncode byte
    match piece, encodeBytes set plus s with
    | some p, some r => some (p ++ r)
    | _, _ => none

/-- The loop of `percent_encode_after_encoding` (290-330), at most `n` iterations with at most `fuel` iterations of
`process_queue` each. `encode_or_fail` gets the encoder by value, so each iteration begins with its initial state. -/
def encodeLoop (fuel : Nat) (c : Coder) (set : Nat → Bool) (plus : Bool) : Nat → Queue → List Nat → Ends (List Nat)
  | 0, _, _ => .more
  | n + 1, q, output =>
    match encodeOrFail fuel q c [] with
    | .ub => .ub
    | .more => .more
    | .stop (r, q, encodeOutput) =>
      match encodeBytes set plus (fromQueue encodeOutput) with
      | none => .ub
      | some o =>
        match r with
        | .error cp => encodeLoop fuel c set plus n q
          (output ++ o ++ [0x25, 0x32, 0x36, 0x25, 0x32, 0x33] ++ serializeInteger cp ++ [0x25, 0x33, 0x42])
        | _ => .stop (output ++ o)

/-- `percent_encode_after_encoding` (276-333). -/
def percentEncodeAfterEncoding (fuel : Nat) (name : Enc) (input : List Nat) (set : Nat → Bool) (plus : Bool) :
    Ends (List Nat) :=
  match encoderOf name with
  | none => .ub
  | some c => encodeLoop fuel c set plus fuel (toQueue input) []

/-- `utf8_percent_encode` of a string (349-353). -/
def utf8PercentEncode (fuel : Nat) (s : List Nat) (set : Nat → Bool) : Ends (List Nat) :=
  percentEncodeAfterEncoding fuel .UTF_8 s set false

/-- `utf8_percent_encode` of a code point (339-343). -/
def utf8PercentEncodeCp (fuel : Nat) (cp : Nat) (set : Nat → Bool) : Ends (List Nat) :=
  percentEncodeAfterEncoding fuel .UTF_8 [cp] set false

end Verif.Model.Percent
