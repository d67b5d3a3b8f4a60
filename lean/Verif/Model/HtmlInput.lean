import Verif.Model.Infra
/-
Model of include/wordring/whatwg/html/parsing/input_stream.hpp (class input_stream). The two callbacks into the derived
tokenizer are recorded as events; the buffer `m_c` is a list, front first. `none` = undefined behaviour (front of an
empty deque, dereferencing the end of a string_view) .
-/
namespace Verif.Model.HtmlInput
open Verif.Model.Infra

/-- `error_name` values used by this class (input_stream.hpp:109-111). -/
inductive Err
  | surrogate
  | noncharacter
  | control
deriving DecidableEq, Repr

/-- Callbacks: a code point was appended to the buffer and `on_emit_code_point` called, `on_report_error`, and the call of
`on_emit_code_point` that announces the end of the stream. -/
inductive Event
  | emit (cp : Nat)
  | error (e : Err)
  | eof
deriving DecidableEq, Repr

/-- `push_code_point` (107-134) on the CR state; returns the new CR state and the callbacks in order. -/
def pushCodePoint (cr : Bool) (cp : Nat) : Bool × List Event :=
  let errs :=
    (if isSurrogate cp then [Event.error .surrogate] else []) ++
    (if isNoncharacter cp then [Event.error .noncharacter] else []) ++
    (if !(isAsciiWhiteSpace cp || cp == 0) && isControl cp then [Event.error .control] else [])
  if cr then
    if cp = 13 then (true, errs ++ [.emit 10])
    else if cp = 10 then (false, errs ++ [.emit 10])
    else (false, errs ++ [.emit 10, .emit cp])
  else
    if cp = 13 then (true, errs) else (false, errs ++ [.emit cp])

/-- `push_eof` (140-153). -/
def pushEof (cr : Bool) : List Event := (if cr then [.emit 10] else []) ++ [.eof]

/-- Pushing a whole stream. -/
def pushAll : Bool → List Nat → List Event
  | cr, [] => pushEof cr
  | cr, cp :: s => (pushCodePoint cr cp).2 ++ pushAll (pushCodePoint cr cp).1 s

/-- Data members of the buffer side: `m_c`, `m_current_input_character`, `m_eof`, `m_eof_consumed` (375-390). -/
structure Stream where
  c : List Nat
  cur : Nat
  eof : Bool
  eofConsumed : Bool
deriving DecidableEq, Repr

/-- `fill(n)` (229-233), the returned value. -/
def fill (s : Stream) (n : Nat) : Bool := s.eof || s.c.length == n

/-- `consume()` (241-254). -/
def consume (s : Stream) : Option (Stream × Nat) :=
  if s.c.isEmpty && s.eof then some ({ s with eofConsumed := true }, 0)
  else match s.c with
    | [] => none
    | c :: cs => some ({ s with c := cs, cur := c }, c)

/-- `consume(n)` (263-266). -/
def consumeN (s : Stream) : Nat → Option Stream
  | 0 => some s
  | n + 1 => (consume s).bind fun r => consumeN r.1 n

/-- `reconsume()` (270-274). -/
def reconsume (s : Stream) : Stream :=
  if s.eofConsumed then { s with eofConsumed := false } else { s with c := s.cur :: s.c }

/-- Lines 300-301 and 312-313. -/
def foldCase (ci : Bool) (cp : Nat) : Nat := if ci && isAsciiUpperAlpha cp then cp + 0x20 else cp

/-- The loop of `match` (308-316). -/
def matchLoop (ci : Bool) : List Nat → List Nat → Bool
  | [], _ => true
  | _ :: _, [] => false
  | l :: ls, c :: cs => if foldCase ci c ≠ l then false else matchLoop ci ls cs

/-- `match(label, with_current, case_insensitive)` (293-319). -/
def matchLabel (s : Stream) (label : List Nat) (withCurrent ci : Bool) : Option Bool :=
  if withCurrent then
    match label with
    | [] => none
    | l :: ls => if foldCase ci s.cur ≠ l then some false else some (matchLoop ci ls s.c)
  else some (matchLoop ci label s.c)

end Verif.Model.HtmlInput
