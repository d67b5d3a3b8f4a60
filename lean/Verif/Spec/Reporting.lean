import Verif.Model.Legacy
import Verif.Spec.Decode
/- What a decoder of the library makes of a byte sequence, in the default error mode and in mode `fatal`. -/
namespace Verif.Spec
open Verif.Model.Coder Verif.Model.Legacy

/-- In the default mode the decoder of `e` ends within `n + 1` iterations and writes all code points of the report `o`. -/
def Writes (n : Nat) (e : Enc) (b : List Nat) (o : List (Option Nat)) : Prop := ∀ fuel, n < fuel →
  ∃ q out, runCoder (decoderOf e) .replacement fuel (toQueue b) [] = .stop (.finished, q, out) ∧ fromQueue out = points o

/-- In mode `fatal` it ends within `n + 1` iterations, finishes exactly when the report has no error, and has written the code
points in front of the first error. -/
def WritesFatal (n : Nat) (e : Enc) (b : List Nat) (o : List (Option Nat)) : Prop := ∀ fuel, n < fuel →
  ∃ r q out, runCoder (decoderOf e) .fatal fuel (toQueue b) [] = .stop (r, q, out) ∧ (r = .finished ↔ none ∉ o) ∧
    fromQueue out = points (o.takeWhile Option.isSome)

/-- The decoder of `e` makes the report `o` of the bytes `b`. -/
def Reports (n : Nat) (e : Enc) (b : List Nat) (o : List (Option Nat)) : Prop := Writes n e b o ∧ WritesFatal n e b o

/-- The decoder of `e` fails an assertion on the bytes `b`. -/
def FailsOn (n : Nat) (e : Enc) (mode : Mode) (b : List Nat) : Prop := ∀ fuel, n < fuel →
  runCoder (decoderOf e) mode fuel (toQueue b) [] = .ub

end Verif.Spec
