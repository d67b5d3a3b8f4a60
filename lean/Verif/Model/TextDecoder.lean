import Verif.Model.Legacy
/-
Model of `text_decoder` (include/wordring/whatwg/encoding/api.hpp).

`std::range_error` is the outcome `none` of a loop or call that ends.
-/
namespace Verif.Model.TextDecoder
open Verif.Model.Coder Verif.Model.Legacy

/-- `serialize_io_queue` (api.hpp:71-92). `utf` is the comparison with the three UTF encodings (81). The text and
`m_bom_seen`; `none` = failed assertion (79). -/
def serialize (utf ignoreBom : Bool) : Bool → Queue → Option (List Nat × Bool)
  | _, [] => none
  | seen, .eoq :: _ => some ([], seen)
  | seen, .val v :: q =>
    if utf = true ∧ ignoreBom = false ∧ seen = false then
      if v = 0xFEFF then serialize utf ignoreBom true q
      else (serialize utf ignoreBom true q).map fun r => (v :: r.1, r.2)
    else (serialize utf ignoreBom seen q).map fun r => (v :: r.1, r.2)

/-- The loop of `decode` (163-176), at most `fuel` iterations: decoder, input and output, or an exception. Reading an empty
queue gives a default item (`*item` of a waiting result). -/
def loop {σ : Type} (run : Run σ) (mode : Mode) (stream : Bool) : Nat → σ → Queue → Queue →
    Ends (Option (σ × Queue × Queue))
  | 0, _, _, _ => .more
  | fuel + 1, st, q, out =>
    let x := (read q).getD (.val 0, q)
    if x.1 = .eoq ∧ stream = true then .stop (some (st, x.2, out))
    else
      match processItem false run mode x.1 st x.2 out with
      | none => .ub
      | some (.finished, st, q, out) => .stop (some (st, q, out))
      | some (.error _, _, _, _) => .stop none
      | some (_, st, q, out) => loop run mode stream fuel st q out

/-- The fields of `text_decoder` (59-64, 181) that a call changes. -/
structure Fields (σ : Type) where
  decoder : σ
  queue : Queue
  bomSeen : Bool
  doNotFlush : Bool

/-- The fields a constructor sets (101-131). -/
structure Options where
  name : Enc
  fatal : Bool
  ignoreBom : Bool

/-- The constructors (101-131), `name` what `get_encoding_name` found; `none` = `std::range_error`. -/
def construct (name : Option Enc) (fatal ignoreBom : Bool) : Option Options :=
  match name with
  | none => none
  | some e => if e = .replacement then none else some ⟨e, fatal, ignoreBom⟩

/-- The test of `serialize_io_queue` (81). -/
def isUtf (e : Enc) : Bool := decide (e = .UTF_8 ∨ e = .UTF_16BE ∨ e = .UTF_16LE)

/-- `decode(first, last, stream)` (140-178); without iterators the input is empty. The text and the fields, or an
exception (after which the fields are not used any more in the model). -/
def decode (o : Options) (fuel : Nat) (d : Fields (decoderOf o.name).σ) (input : List Nat) (stream : Bool) :
    Ends (Option (List Nat × Fields (decoderOf o.name).σ)) :=
  let d := if d.doNotFlush = false then ⟨(decoderOf o.name).init, push [] .eoq, false, false⟩ else d
  match loop (decoderOf o.name).run (if o.fatal then .fatal else .replacement) stream fuel d.decoder (pushAll d.queue input)
    (push [] .eoq) with
  | .ub => .ub
  | .more => .more
  | .stop none => .stop none
  | .stop (some (st, q, out)) =>
    match serialize (isUtf o.name) o.ignoreBom d.bomSeen out with
    | none => .ub
    | some (text, seen) => .stop (some (text, ⟨st, q, seen, stream⟩))

/-- A user feeding chunks with `stream = true`, then the last one with `stream = false`: everything that was returned, or
the first exception. -/
def decodeChunks (o : Options) (fuel : Nat) : Fields (decoderOf o.name).σ → List (List Nat) → List Nat →
    Ends (Option (List Nat))
  | d, [], last =>
    match decode o fuel d last false with
    | .ub => .ub
    | .more => .more
    | .stop none => .stop none
    | .stop (some (text, _)) => .stop (some text)
  | d, c :: cs, last =>
    match decode o fuel d c true with
    | .ub => .ub
    | .more => .more
    | .stop none => .stop none
    | .stop (some (text, d)) =>
      match decodeChunks o fuel d cs last with
      | .stop (some rest) => .stop (some (text ++ rest))
      | r => r

end Verif.Model.TextDecoder
