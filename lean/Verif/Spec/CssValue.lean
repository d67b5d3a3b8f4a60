import Verif.Model.CssTok
import Verif.Spec.CssTok
/-
How the tokens of the model are read as tokens of the standard. The library computes the value of a number in `double`; here it is
computed exactly from the same parts.
-/
namespace Verif.Spec.CssTok
open Verif.Model.CssTok

/-- The last line of `convert_string_to_number` (tokenization.hpp:650) in exact arithmetic. -/
def numValue (v : Num) : ℚ :=
  (if v.neg then -1 else 1) * (v.i + v.f / 10 ^ v.d) * (if v.expNeg then 1 / 10 ^ v.e else 10 ^ v.e)

/-- The token as in the standard, the number in exact arithmetic. -/
def tok : Model.CssTok.Token → Tok
  | .ident v => .ident v
  | .function v => .function v
  | .atKeyword v => .atKeyword v
  | .hash v b => .hash v b
  | .string v => .string v
  | .badString => .badString
  | .url v => .url v
  | .badUrl => .badUrl
  | .delim c => .delim c
  | .number v b => .number (numValue v) b
  | .percentage v => .percentage (numValue v)
  | .dimension v u b => .dimension (numValue v) u b
  | .whitespace => .whitespace
  | .cdo => .cdo
  | .cdc => .cdc
  | .colon => .colon
  | .semicolon => .semicolon
  | .comma => .comma
  | .openSquare => .openSquare
  | .closeSquare => .closeSquare
  | .openParen => .openParen
  | .closeParen => .closeParen
  | .openCurly => .openCurly
  | .closeCurly => .closeCurly
  | .eof => .eof

end Verif.Spec.CssTok
