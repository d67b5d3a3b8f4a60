import Verif.Model.Infra
/-
Model of include/wordring/whatwg/encoding: terminology.hpp (I/O queues), encoding_defs.hpp (results), encoding.hpp
(process_queue, process_item and the hooks) and the UTF-8, UTF-16, x-user-defined and replacement coders of coder.hpp.

Bytes and code points are `Nat`s. A queue of `char` holds the byte value of each `char`. `none` = a failed assertion
(undefined behaviour in release builds).

Simplification: a coder's `run(in, item)` touches its queue argument only through `in.prepend`; the model of `run`
returns the items it prepends (front first) instead of taking the queue.
-/
namespace Verif.Model.Coder
open Verif.Model.Infra

/-- `io_item` (terminology.hpp:25-32): a value or end-of-queue. -/
inductive Item
  | val (v : Nat)
  | eoq
deriving DecidableEq, Repr

/-- `io_queue` (terminology.hpp:54-211), front first. -/
abbrev Queue := List Item

/-- `io_queue::read()` (79-87): `none` = wait; end-of-queue is never removed. -/
def read : Queue → Option (Item × Queue)
  | [] => none
  | .eoq :: q => some (.eoq, .eoq :: q)
  | .val v :: q => some (.val v, q)

/-- The loop of `read(n)` (113). Reading an empty queue is `*read()` of a waiting result, a default item. -/
def readLoop : Nat → Queue → List Item × Queue
  | 0, q => ([], q)
  | n + 1, q =>
    match read q with
    | none => (.val 0 :: (readLoop n q).1, (readLoop n q).2)
    | some (i, q) => (i :: (readLoop n q).1, (readLoop n q).2)

/-- `io_queue::read(n)` (106-118): items (`none` = wait) and the queue left. -/
def readN (n : Nat) (q : Queue) : Option (List Item) × Queue :=
  if q.length < n then (none, q)
  else
    let r := readLoop n q
    (some (if r.1.getLast? = some .eoq then r.1.dropLast else r.1), r.2)

/-- The loop of `peek` (134-138): everything in front of the first end-of-queue. -/
def peekLoop : Queue → List Nat
  | [] => []
  | .eoq :: _ => []
  | .val v :: q => v :: peekLoop q

/-- `io_queue::peek(n)` (125-141); `none` = wait. The number of items returned is not limited to `n`. -/
def peek (n : Nat) (q : Queue) : Option (List Nat) :=
  if q.length < n ∧ ¬ (q.getLast? = some .eoq) then none else some (peekLoop q)

/-- `io_queue::push(item)` (152-162). -/
def push (q : Queue) (i : Item) : Queue :=
  if q.getLast? = some .eoq then
    if i = .eoq then q else q.dropLast ++ [i, .eoq]
  else q ++ [i]

/-- `io_queue::push(first, last)` (169-177). -/
def pushAll (q : Queue) : List Nat → Queue
  | [] => q
  | v :: vs => pushAll (push q (.val v)) vs

/-- `prepend` (183-207), all three overloads. -/
def prepend (q : Queue) (is : List Item) : Queue := is ++ q

/-- `from_io_queue_convert` (222-231). -/
def fromQueue : Queue → List Nat
  | [] => []
  | .eoq :: _ => []
  | .val v :: q => v :: fromQueue q

/-- `to_io_queue_convert` (237-245). -/
def toQueue (s : List Nat) : Queue := push (pushAll [] s) .eoq

/-- `result_value` (encoding_defs.hpp:17-45); alternatives 2-3 are `points`, 4-7 are `bytes`. -/
inductive Res
  | finished
  | cont
  | points (l : List Nat)
  | bytes (l : List Nat)
  | error (cp : Nat)
deriving DecidableEq, Repr

/-- `result_error{}` (30). -/
def Res.err : Res := .error 0xFFFFFFFF

/-- `error_mode_name` (47-53). -/
inductive Mode
  | none | replacement | fatal | html
deriving DecidableEq, Repr

/-- What a coder's `run(in, item)` does to its state and what it prepends to `in`. -/
abbrev Run (σ : Type) := σ → Item → Option (Res × σ × List Item)

/-- Decimal digits of `std::to_chars` (most significant first). -/
def toChars (base n : Nat) : List Nat :=
  if h : n < base ∨ base < 2 then [if n < 10 then 0x30 + n else 0x61 + (n - 10)]
  else toChars base (n / base) ++ [if n % base < 10 then 0x30 + n % base else 0x61 + (n % base - 10)]
termination_by n
decreasing_by exact Nat.div_lt_self (by omega) (by omega)

/-- `process_item` (encoding.hpp:61-149). `dec` is `std::is_base_of_v<decoder, Coder>`; `Coder` is always the variant
`coder`, so the library only ever has `dec = false` (and the assertions of steps 1-3 are compiled out).
Ten characters are enough for every `uint32_t` (136). -/
def processItem {σ : Type} (dec : Bool) (run : Run σ) (mode : Mode) (item : Item) (st : σ) (q out : Queue) :
    Option (Res × σ × Queue × Queue) :=
  match run st item with
  | none => none
  | some (r, st, pre) =>
    let q := prepend q pre
    match r with
    | .finished => some (.finished, st, q, push out .eoq)
    | .cont => some (.cont, st, q, out)
    | .points l => some (.cont, st, q, pushAll out l)
    | .bytes l => some (.cont, st, q, pushAll out l)
    | .error cp =>
      match mode with
      | .replacement => some (.cont, st, q, if dec then push out (.val 0xFFFD) else out)
      | .html => some (.cont, st, q, pushAll out ([0x26, 0x23] ++ toChars 10 cp ++ [0x3B]))
      | .fatal => some (.error cp, st, q, out)
      | .none => some (.cont, st, q, out)

/-- Outcome of a loop that need not end: it stops with a value, meets a failed assertion, or is still running after the
given number of iterations. -/
inductive Ends (α : Type)
  | stop (a : α)
  | ub
  | more
deriving DecidableEq, Repr

/-- `process_queue` (44-57), at most `fuel` iterations: the result, the coder, the input and the output. -/
def processQueue {σ : Type} (dec : Bool) (run : Run σ) (mode : Mode) : Nat → σ → Queue → Queue →
    Ends (Res × σ × Queue × Queue)
  | 0, _, _, _ => .more
  | fuel + 1, st, q, out =>
    match read q with
    | none => .stop (.cont, st, q, out)
    | some (item, q) =>
      match processItem dec run mode item st q out with
      | none => .ub
      | some (r, st, q, out) =>
        if r = .cont then processQueue dec run mode fuel st q out else .stop (r, st, q, out)

/-! ### Coders -/

/-- State of `UTF_8_decoder` (coder.hpp:195-199). -/
structure Utf8D where
  cp : Nat
  seen : Nat
  needed : Nat
  lower : Nat
  upper : Nat
deriving DecidableEq, Repr

/-- `UTF_8_decoder()` (111-118). -/
def Utf8D.init : Utf8D := ⟨0, 0, 0, 0x80, 0xBF⟩

/-- `UTF_8_decoder::run` (122-192). The accumulated code point never exceeds 21 bits, so no `uint32_t` wraps. -/
def utf8D : Run Utf8D := fun s item =>
  match item with
  | .eoq => if s.needed ≠ 0 then some (.err, { s with needed := 0 }, []) else some (.finished, s, [])
  | .val v =>
    let byte := v % 256
    if s.needed = 0 then
      if byte ≤ 0x7F then some (.points [byte], s, [])
      else if 0xC2 ≤ byte ∧ byte ≤ 0xDF then
        some (.cont, { s with needed := 1, cp := byte &&& 0x1F }, [])
      else if 0xE0 ≤ byte ∧ byte ≤ 0xEF then
        some (.cont, { s with
          lower := if byte = 0xE0 then 0xA0 else s.lower
          upper := if byte = 0xED then 0x9F else s.upper
          needed := 2, cp := byte &&& 0xF }, [])
      else if 0xF0 ≤ byte ∧ byte ≤ 0xF4 then
        some (.cont, { s with
          lower := if byte = 0xF0 then 0x90 else s.lower
          upper := if byte = 0xF4 then 0x8F else s.upper
          needed := 3, cp := byte &&& 0x7 }, [])
      else some (.err, s, [])
    else if ¬ (s.lower ≤ byte ∧ byte ≤ s.upper) then
      some (.err, ⟨0, 0, 0, 0x80, 0xBF⟩, [.val byte])
    else
      let cp := (s.cp <<< 6) ||| (byte &&& 0x3F)
      let seen := s.seen + 1
      if seen ≠ s.needed then some (.cont, ⟨cp, seen, s.needed, 0x80, 0xBF⟩, [])
      else some (.points [cp], ⟨0, 0, 0, 0x80, 0xBF⟩, [])

/-- The loop of `UTF_8_encoder::run<Array>` (223-229). -/
def utf8Tail (cp : Nat) : Nat → List Nat
  | 0 => []
  | count + 1 => (0x80 ||| ((cp >>> (6 * count)) &&& 0x3F)) % 256 :: utf8Tail cp count

/-- `UTF_8_encoder::run<Array>` (209-232), `count` the size of the array minus one. -/
def utf8Array (count cp : Nat) : List Nat :=
  let offset := if count = 1 then 0xC0 else if count = 2 then 0xE0 else if count = 3 then 0xF0 else 0
  ((cp >>> (6 * count)) + offset) % 256 :: utf8Tail cp count

/-- `UTF_8_encoder::run` (235-251). -/
def utf8E : Run Unit := fun s item =>
  match item with
  | .eoq => some (.finished, s, [])
  | .val cp =>
    if cp ≤ 0x7F then some (.bytes [cp % 256], s, [])
    else if 0x80 ≤ cp ∧ cp ≤ 0x7FF then some (.bytes (utf8Array 1 cp), s, [])
    else if 0x800 ≤ cp ∧ cp ≤ 0xFFFF then some (.bytes (utf8Array 2 cp), s, [])
    else if 0x10000 ≤ cp ∧ cp ≤ 0x10FFFF then some (.bytes (utf8Array 3 cp), s, [])
    else none

/-- State of `shared_UTF_16_decoder` (1456-1457). -/
structure Utf16D where
  lead : Option Nat
  surrogate : Option Nat
deriving DecidableEq, Repr

/-- A default constructed decoder. -/
def Utf16D.init : Utf16D := ⟨none, none⟩

/-- `shared_UTF_16_decoder<be>::run` (1387-1453). Step 5.2 reads `code_unit > 8`, a truth value, where the standard
shifts. -/
def utf16D (be : Bool) : Run Utf16D := fun s item =>
  match item with
  | .eoq =>
    if s.lead.isSome || s.surrogate.isSome then some (.err, ⟨none, none⟩, []) else some (.finished, s, [])
  | .val v =>
    let byte := v % 256
    match s.lead with
    | none => some (.cont, { s with lead := some byte }, [])
    | some lead =>
      let unit := if be then ((lead <<< 8) + byte) % 65536 else ((byte <<< 8) + lead) % 65536
      match s.surrogate with
      | some ls =>
        if 0xDC00 ≤ unit ∧ unit ≤ 0xDFFF then
          some (.points [(0x10000 + ((ls - 0xD800) <<< 10) + (unit - 0xDC00)) % 2 ^ 32], ⟨none, none⟩, [])
        else
          let byte1 := if unit > 8 then 1 else 0
          let byte2 := unit &&& 0xFF
          some (.err, ⟨none, none⟩, if be then [.val byte1, .val byte2] else [.val byte2, .val byte1])
      | none =>
        if 0xD800 ≤ unit ∧ unit ≤ 0xDBFF then some (.cont, ⟨none, some unit⟩, [])
        else if 0xDC00 ≤ unit ∧ unit ≤ 0xDFFF then some (.err, ⟨none, none⟩, [])
        else some (.points [unit], ⟨none, none⟩, [])

/-- `replacement_decoder::run` (1360-1373). -/
def replacementD : Run Bool := fun s item =>
  match item with
  | .eoq => some (.finished, s, [])
  | .val _ => if s = false then some (.err, true, []) else some (.finished, s, [])

/-- `x_user_defined_decoder::run` (1470-1481). -/
def userDefinedD : Run Unit := fun s item =>
  match item with
  | .eoq => some (.finished, s, [])
  | .val v =>
    let byte := v % 256
    if byte ≤ 0x7F then some (.points [byte], s, []) else some (.points [0xF780 + byte - 0x80], s, [])

/-- `x_user_defined_encoder::run` (1491-1504). -/
def userDefinedE : Run Unit := fun s item =>
  match item with
  | .eoq => some (.finished, s, [])
  | .val cp =>
    if cp ≤ 0x7F then some (.bytes [cp % 256], s, [])
    else if 0xF780 ≤ cp ∧ cp ≤ 0xF7FF then some (.bytes [(cp - 0xF780 + 0x80) % 256], s, [])
    else some (.error cp, s, [])

/-! ### Hooks for UTF-8 (encoding.hpp:398-478) -/

/-- `utf8_decode(in, out)` (398-417), at most `fuel` iterations of `process_queue`. The byte order mark is compared with
`char` literals, so it is recognised only in a queue of (signed) `char`. -/
def utf8Decode (fuel : Nat) (q out : Queue) : Ends (Res × Queue × Queue) :=
  match peek 3 q with
  | none => .stop (.cont, q, out)
  | some b =>
    let q := if 3 ≤ b.length ∧ b[0]? = some 0xEF ∧ b[1]? = some 0xBB ∧ b[2]? = some 0xBF then (readN 3 q).2 else q
    match processQueue false utf8D .replacement fuel Utf8D.init q out with
    | .stop (r, _, q, out) => .stop (r, q, out)
    | .ub => .ub
    | .more => .more

/-- `utf8_decode_without_bom` (439-447). -/
def utf8DecodeWithoutBom (fuel : Nat) (q out : Queue) : Ends (Res × Queue × Queue) :=
  match processQueue false utf8D .replacement fuel Utf8D.init q out with
  | .stop (r, _, q, out) => .stop (r, q, out)
  | .ub => .ub
  | .more => .more

/-- `utf8_decode_without_bom_or_fail` (453-462). -/
def utf8DecodeOrFail (fuel : Nat) (q out : Queue) : Ends (Res × Queue × Queue) :=
  match processQueue false utf8D .fatal fuel Utf8D.init q out with
  | .stop (r, _, q, out) => .stop (r, q, out)
  | .ub => .ub
  | .more => .more

/-- `utf8_encode` (471-478) through `encode` (546-552) with `get_encoder(UTF_8)`. -/
def utf8Encode (fuel : Nat) (q out : Queue) : Ends (Res × Queue × Queue) :=
  match processQueue false utf8E .html fuel () q out with
  | .stop (r, _, q, out) => .stop (r, q, out)
  | .ub => .ub
  | .more => .more

end Verif.Model.Coder
