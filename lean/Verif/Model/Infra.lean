import Verif.Model.Unicode
/-
Model of include/wordring/whatwg/infra/infra.hpp.
Strings are lists of code units of a character type `ct`; outputs are written through `to_string` for the output
character type. `none` = undefined behaviour (failed assertion, dereferencing past the end).
-/
namespace Verif.Model.Infra
open Verif.Model.Unicode

/-- infra.hpp:103-106. -/
def isSurrogate (c : Nat) : Bool := 0xD800 ≤ c && c ≤ 0xDFFF
/-- infra.hpp:108 (no upper bound is checked). -/
def isScalarValue (c : Nat) : Bool := !isSurrogate c
/-- infra.hpp:110-154, the switch as a membership test in its list of labels. -/
def isNoncharacter (c : Nat) : Bool :=
  if 0xFDD0 ≤ c && c ≤ 0xFDEF then true else
  [0xFFFE, 0xFFFF, 0x1FFFE, 0x1FFFF, 0x2FFFE, 0x2FFFF, 0x3FFFE, 0x3FFFF, 0x4FFFE, 0x4FFFF, 0x5FFFE, 0x5FFFF,
   0x6FFFE, 0x6FFFF, 0x7FFFE, 0x7FFFF, 0x8FFFE, 0x8FFFF, 0x9FFFE, 0x9FFFF, 0xAFFFE, 0xAFFFF, 0xBFFFE, 0xBFFFF,
   0xCFFFE, 0xCFFFF, 0xDFFFE, 0xDFFFF, 0xEFFFE, 0xEFFFF, 0xFFFFE, 0xFFFFF, 0x10FFFE, 0x10FFFF].contains c
/-- infra.hpp:161-164. -/
def isAsciiTabOrNewline (c : Nat) : Bool := c == 0x9 || c == 0xA || c == 0xD
/-- infra.hpp:166-169. -/
def isAsciiWhiteSpace (c : Nat) : Bool := c == 0x9 || c == 0xA || c == 0xC || c == 0xD || c == 0x20
/-- infra.hpp:171-174. -/
def isC0Control (c : Nat) : Bool := c ≤ 0x1F
/-- infra.hpp:176-179. -/
def isC0ControlOrSpace (c : Nat) : Bool := isC0Control c || c == 0x20
/-- infra.hpp:181-184. -/
def isControl (c : Nat) : Bool := isC0Control c || (0x7F ≤ c && c ≤ 0x9F)
/-- infra.hpp:186-189. -/
def isAsciiDigit (c : Nat) : Bool := 0x30 ≤ c && c ≤ 0x39
/-- infra.hpp:191-194. -/
def isAsciiUpperHexDigit (c : Nat) : Bool := isAsciiDigit c || (0x41 ≤ c && c ≤ 0x46)
/-- infra.hpp:196-199. -/
def isAsciiLowerHexDigit (c : Nat) : Bool := isAsciiDigit c || (0x61 ≤ c && c ≤ 0x66)
/-- infra.hpp:201-204. -/
def isAsciiHexDigit (c : Nat) : Bool := isAsciiUpperHexDigit c || isAsciiLowerHexDigit c
/-- infra.hpp:206-209. -/
def isAsciiUpperAlpha (c : Nat) : Bool := 0x41 ≤ c && c ≤ 0x5A
/-- infra.hpp:211-214. -/
def isAsciiLowerAlpha (c : Nat) : Bool := 0x61 ≤ c && c ≤ 0x7A
/-- infra.hpp:216-219. -/
def isAsciiAlpha (c : Nat) : Bool := isAsciiUpperAlpha c || isAsciiLowerAlpha c
/-- infra.hpp:221-224. -/
def isAsciiAlphanumeric (c : Nat) : Bool := isAsciiDigit c || isAsciiAlpha c

/-- `to_byte_lowercase` (infra.hpp:41-50). -/
def toByteLowercase (s : List Nat) : List Nat := s.map fun ch => if 0x41 ≤ ch ∧ ch ≤ 0x5A then ch + 0x20 else ch
/-- `to_byte_uppercase` (infra.hpp:67-76). -/
def toByteUppercase (s : List Nat) : List Nat := s.map fun ch => if 0x61 ≤ ch ∧ ch ≤ 0x7A then ch - 0x20 else ch
/-- `is_byte_case_insensitive_match` (infra.hpp:80-89). -/
def isByteCaseInsensitiveMatch (s t : List Nat) : Bool := toByteLowercase s == toByteLowercase t

/-- `isomorphic_decode` (infra.hpp:95-99). -/
def isomorphicDecode (s : List Nat) : List Nat := s.map (· % 256)
/-- `isomorphic_encode` (infra.hpp:228-236); the assertion on 233 is checked for every unit. -/
def isomorphicEncode (s : List Nat) : Option (List Nat) :=
  s.mapM fun c => if c ≤ 0xFF then some (c % 256) else none

/-- `is_ascii_string` (infra.hpp:238-248). The early return is a loop with result in the state. -/
def isAsciiString (ct : CharT) (s : List Nat) : Option Bool :=
  if s.isEmpty then some true else
  match _h : toCodePoint ct s with
  | none => none
  | some (c, r) => if 0x7F < c then some false else isAsciiString ct r
termination_by s.length
decreasing_by exact toCodePoint_length _h

/-- `to_ascii_lowercase` (infra.hpp:252-262). -/
def toAsciiLowercase (src dst : CharT) (s : List Nat) : Option (List Nat) :=
  loopCP src (fun out cp => emit dst out (if isAsciiUpperAlpha cp then cp + 0x20 else cp)) [] s
/-- `to_ascii_uppercase` (infra.hpp:266-276). -/
def toAsciiUppercase (src dst : CharT) (s : List Nat) : Option (List Nat) :=
  loopCP src (fun out cp => emit dst out (if isAsciiLowerAlpha cp then cp - 0x20 else cp)) [] s

/-- `is_ascii_case_insensitive_match` (infra.hpp:280-296). -/
def isAsciiCaseInsensitiveMatch (ct1 ct2 : CharT) (s t : List Nat) : Option Bool :=
  if s.isEmpty || t.isEmpty then some (s.isEmpty && t.isEmpty) else
  match _h : toCodePoint ct1 s with
  | none => none
  | some (c1, r1) =>
    match toCodePoint ct2 t with
    | none => none
    | some (c2, r2) =>
      let c1 := if isAsciiUpperAlpha c1 then c1 + 0x20 else c1
      let c2 := if isAsciiUpperAlpha c2 then c2 + 0x20 else c2
      if c1 ≠ c2 then some false else isAsciiCaseInsensitiveMatch ct1 ct2 r1 r2
termination_by s.length
decreasing_by exact toCodePoint_length _h

/-- `strip_newlines` (infra.hpp:318-327). -/
def stripNewlines (src dst : CharT) (s : List Nat) : Option (List Nat) :=
  loopCP src (fun out cp => if cp ≠ 0xA ∧ cp ≠ 0xD then emit dst out cp else some out) [] s

/-- Number of values of a code unit: `*output++ = cp` converts the code point to the output unit type. -/
def unitMod : CharT → Nat
  | .c8 => 2 ^ 8
  | .c16 => 2 ^ 16
  | .c32 => 2 ^ 32

inductive NLState | start | cr
deriving DecidableEq

/-- Loop body of `normalize_newlines` (infra.hpp:343-369); output is written unit-wise, not through `to_string`
(354, 358, 365). -/
def normalizeBody (dst : CharT) (st : NLState × List Nat) (cp : Nat) : Option (NLState × List Nat) :=
  match st with
  | (.start, out) =>
    if cp = 0xD then some (.cr, out)
    else if cp = 0xA then some (.start, out ++ [0xA])
    else some (.start, out ++ [cp % unitMod dst])
  | (.cr, out) =>
    if cp = 0xD then some (.cr, out ++ [0xA])
    else if cp = 0xA then some (.start, out ++ [0xA])
    else some (.start, out ++ [0xA] ++ [cp % unitMod dst])

/-- `normalize_newlines` (infra.hpp:336-370). -/
def normalizeNewlines (src dst : CharT) (s : List Nat) : Option (List Nat) :=
  (loopCP src (normalizeBody dst) (.start, []) s).map (·.2)

/-- `while (left != right) to_string(*left++, output)` (infra.hpp:390) with `left`, `right` as offsets into `tmp`:
when `left` starts behind `right` it runs past the end of `tmp`. -/
def copyRange (dst : CharT) (tmp : List Nat) (left right : Nat) : Option (List Nat) :=
  if left ≤ right then ((tmp.take right).drop left).foldlM (emit dst) [] else none

/-- `strip_leading_and_trailing_ascii_whitespace` (infra.hpp:374-391). -/
def stripLeadingTrailing (src dst : CharT) (s : List Nat) : Option (List Nat) :=
  (loopCP src (fun tmp cp => some (tmp ++ [cp])) [] s).bind fun tmp =>
    let left := (tmp.takeWhile isAsciiWhiteSpace).length
    let right := tmp.length - (tmp.reverse.takeWhile isAsciiWhiteSpace).length
    copyRange dst tmp left right

inductive SCState | start | leading | normal | ws
deriving DecidableEq

/-- Loop body of `strip_and_collapse_ascii_whitespace` (infra.hpp:402-430). -/
def stripCollapseBody (dst : CharT) (st : SCState × List Nat) (cp : Nat) : Option (SCState × List Nat) :=
  match st with
  | (.start, out) =>
    if isAsciiWhiteSpace cp then some (.leading, out) else (emit dst out cp).map (.normal, ·)
  | (.leading, out) =>
    if isAsciiWhiteSpace cp then some (.leading, out) else (emit dst out cp).map (.normal, ·)
  | (.normal, out) =>
    if isAsciiWhiteSpace cp then some (.ws, out) else (emit dst out cp).map (.normal, ·)
  | (.ws, out) =>
    if isAsciiWhiteSpace cp then some (.ws, out)
    else (emit dst out 0x20).bind fun out => (emit dst out cp).map (.normal, ·)

/-- `strip_and_collapse_ascii_whitespace` (infra.hpp:393-431). -/
def stripAndCollapse (src dst : CharT) (s : List Nat) : Option (List Nat) :=
  (loopCP src (stripCollapseBody dst) (.start, []) s).map (·.2)

/-- `collect_sequence_of_code_points` (infra.hpp:433-450): returns the rest (`result`) and the output. -/
def collect (src dst : CharT) (cond : Nat → Bool) (out s : List Nat) : Option (List Nat × List Nat) :=
  if s.isEmpty then some (s, out) else
  match _h : toCodePoint src s with
  | none => none
  | some (c, r) =>
    if !cond c then some (s, out) else
    match emit dst out c with
    | none => none
    | some out' => collect src dst cond out' r
termination_by s.length
decreasing_by exact toCodePoint_length _h

/-- `skip_ascii_whitespace` (infra.hpp:452-467). -/
def skipWhitespace (src : CharT) (s : List Nat) : Option (List Nat) :=
  if s.isEmpty then some s else
  match _h : toCodePoint src s with
  | none => none
  | some (c, r) => if !isAsciiWhiteSpace c then some s else skipWhitespace src r
termination_by s.length
decreasing_by exact toCodePoint_length _h

/-- Loop of `strictly_split_on_particular_delimiter` (infra.hpp:482-495). `fuel` bounds the iterations; the
property theorems use the length of the input, and no result depends on running out (`none` = UB or no fuel). -/
def strictlySplitLoop (ct : CharT) (d : Nat) : Nat → List Nat → List (List Nat) → Option (List (List Nat))
  | _, [], out => some out
  | 0, _ :: _, _ => none
  | fuel + 1, u :: s, out =>
    match toCodePoint ct (u :: s) with
    | none => none
    | some (c, _) =>
      if c ≠ d then none else
      match collect ct ct (fun cp => cp != d) [] s with
      | none => none
      | some (r, token) => strictlySplitLoop ct d fuel r (out ++ [token])

/-- `strictly_split_on_particular_delimiter` (infra.hpp:471-496). -/
def strictlySplit (ct : CharT) (d : Nat) (s : List Nat) : Option (List (List Nat)) :=
  match collect ct ct (fun cp => cp != d) [] s with
  | none => none
  | some (r, token) => strictlySplitLoop ct d s.length r [token]

/-- Loop of `split_on_ascii_whitespace` (infra.hpp:506-512), fuel as above. -/
def splitWsLoop (ct : CharT) : Nat → List Nat → List (List Nat) → Option (List (List Nat))
  | _, [], out => some out
  | 0, _ :: _, _ => none
  | fuel + 1, u :: s, out =>
    match collect ct ct (fun cp => !isAsciiWhiteSpace cp) [] (u :: s) with
    | none => none
    | some (r, token) =>
      match skipWhitespace ct r with
      | none => none
      | some r' => splitWsLoop ct fuel r' (out ++ [token])

/-- `split_on_ascii_whitespace` (infra.hpp:498-513). -/
def splitOnWhitespace (ct : CharT) (s : List Nat) : Option (List (List Nat)) :=
  match skipWhitespace ct s with
  | none => none
  | some r => splitWsLoop ct s.length r []

/-- Loop of `split_on_commas` (infra.hpp:521-532), fuel as above. -/
def splitCommasLoop (ct : CharT) : Nat → List Nat → List (List Nat) → Option (List (List Nat))
  | _, [], out => some out
  | 0, _ :: _, _ => none
  | fuel + 1, u :: s, out =>
    match collect ct ct (fun cp => cp != 0x2C) [] (u :: s) with
    | none => none
    | some (r, tmp1) =>
      match stripLeadingTrailing ct ct tmp1 with
      | none => none
      | some tmp2 =>
        match r with
        | [] => some (out ++ [tmp2])
        | v :: r' => if v ≠ 0x2C then none else splitCommasLoop ct fuel r' (out ++ [tmp2])

/-- `split_on_commas` (infra.hpp:515-533). -/
def splitOnCommas (ct : CharT) (s : List Nat) : Option (List (List Nat)) := splitCommasLoop ct s.length s []

end Verif.Model.Infra
