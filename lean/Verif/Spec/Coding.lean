import Verif.Model.Legacy
/- Round trips through the encoding API: what the properties of the legacy coders speak about. -/
namespace Verif.Spec
open Verif.Model.Coder Verif.Model.Legacy

/-- `encode_or_fail` writes the string `s` in the encoding `e` as `bytes`. -/
def Encoded (e : Enc) (s bytes : List Nat) : Prop :=
  ∃ c fuel q out, encoderOf e = some c ∧ encodeOrFail fuel (toQueue s) c [] = .stop (.finished, q, out) ∧
    fromQueue out = bytes

/-- `encode_or_fail` reports the error `cp` for the code point `c`. -/
def Rejected (e : Enc) (c cp : Nat) : Prop :=
  ∃ k fuel q out, encoderOf e = some k ∧ encodeOrFail fuel (toQueue [c]) k [] = .stop (.error cp, q, out)

/-- The decoder of `e` reads `bytes` as `s`, in every error mode. -/
def Decoded (e : Enc) (bytes s : List Nat) : Prop :=
  ∃ n, ∀ fuel, n ≤ fuel → ∀ mode, ∃ q out,
    runCoder (decoderOf e) mode fuel (toQueue bytes) [] = .stop (.finished, q, out) ∧ fromQueue out = s

end Verif.Spec
