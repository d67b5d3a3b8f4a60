import Verif.Model.Infra
/-
Model of include/wordring/wwwc/css_syntax/input_stream.hpp.
-/
namespace Verif.Model.CssInput
open Verif.Model.Infra

/-- `filter_code_points` (input_stream.hpp:120-148), in place: `buf` is the container, `r` the reading index (`first`), `w`
the writing index (`out`), `n` the number of code points still to read. Returns the container and the final `out`.
`none` = reading or writing outside the container. -/
def filterLoop : Nat → List Nat → Nat → Nat → Option (List Nat × Nat)
  | 0, buf, _, w => some (buf, w)
  | n + 1, buf, r, w =>
    match buf[r]? with
    | none => none
    | some cp =>
      let put (x : Nat) := if w < buf.length then filterLoop n (buf.set w x) (r + 1) (w + 1) else none
      if cp = 0x0D then
        if n ≠ 0 then
          match buf[r + 1]? with
          | none => none
          | some d => if d = 0x0A then filterLoop n buf (r + 1) w else put 0x0A
        else put 0x0A
      else if cp = 0x0C then put 0x0A
      else if cp = 0 then put 0xFFFD
      else put (if isSurrogate cp then 0xFFFD else cp)

/-- `filter_code_points(first, last)` followed by erasing from the returned iterator on (as documented, 115). -/
def filterCodePoints (s : List Nat) : Option (List Nat) :=
  (filterLoop s.length s 0 0).map fun r => r.1.take r.2

/-- The second loop of `determine_fallback_encoding` (67-93). `inName` is `state == 0`; `lookup` is `get_encoding_name`
(`none` = no such label), `i` counts the iterations left (1015 in total). -/
def charsetLoop {E : Type} (utf8 : E) (lookup : List Nat → Option E) : Nat → List Nat → Bool → List Nat → E
  | 0, _, _, _ => utf8
  | _ + 1, [], _, _ => utf8
  | i + 1, ch :: s, true, label =>
    if ch ≤ 0x21 || (0x23 ≤ ch && ch ≤ 0x7F) then charsetLoop utf8 lookup i s true (label ++ [ch])
    else if ch ≠ 0x22 then utf8
    else charsetLoop utf8 lookup i s false label
  | i + 1, ch :: s, false, label =>
    if ch = 0x3B then match lookup label with
      | none => utf8
      | some e => e
    else charsetLoop utf8 lookup i s true (label ++ [0x22, ch])

/-- The first loop (65): `none` = goto Abort, otherwise the rest. -/
def charsetPrefix : List Nat → List Nat → Option (List Nat)
  | [], s => some s
  | _ :: _, [] => some []
  | p :: ps, c :: s => if p ≠ c then none else charsetPrefix ps s

/-- `@charset "`. -/
def charsetRule : List Nat := [0x40, 0x63, 0x68, 0x61, 0x72, 0x73, 0x65, 0x74, 0x20, 0x22]

/-- `determine_fallback_encoding` (54-97). -/
def determineFallback {E : Type} (utf8 : E) (lookup : List Nat → Option E) (fallback : Option E) (s : List Nat) : E :=
  match fallback with
  | some f => f
  | none => match charsetPrefix charsetRule s with
    | none => utf8
    | some s => charsetLoop utf8 lookup 1015 s true []

end Verif.Model.CssInput
