import Verif.Model.CssTok
/-
Model of include/wordring/wwwc/css_syntax/parsing.hpp. `Ends.ub` is a failing assertion or a read outside a vector, `Ends.more` says that
the fuel did not suffice. Error handlers are left out; they only report positions.
-/
namespace Verif.Model.CssParse
open Verif.Model.Infra Verif.Model.Coder Verif.Model.CssTok

/-- `syntax_primitive` and `component_value` (token.hpp:172-369, 482-596). `other` stands for the alternatives that no component value
can be made of: nothing, `preserved_tokens`, `component_value`, `at_rule`, `qualified_rule` and `declaration`. -/
inductive Prim
  | tok (t : Token)
  | fn (name : List Nat) (vs : List Prim)
  | block (c : Nat) (vs : List Prim)
  | other

/-- The `m_v` of a `token_stream` made of `s` (50-55). -/
def stream (s : List Prim) : List Prim := s ++ [.tok .eof]

/-- `consume` (69-73), also `current_input_token` (57-61) behind it. The state is `m_i + 1`; `reconsume` (75-78) takes one away. -/
def cur (v : List Prim) (i : Nat) : Prim := v.getD i (.tok .eof)

/-- The constructor of `component_value` from a `syntax_primitive` (token.cpp:58-138); `none` is the assertion. -/
def toValue : Prim → Option Prim
  | .tok t =>
    match t with
    | .function _ | .openSquare | .openParen | .openCurly => none
    | t => some (.tok t)
  | .fn n vs => some (.fn n vs)
  | .block c vs => some (.block c vs)
  | .other => none

/-- The first `switch` of `consume_simple_block` (1221-1237). -/
def opening : Token → Option (Nat × Token)
  | .openCurly => some (0x7B, .closeCurly)
  | .openSquare => some (0x5B, .closeSquare)
  | .openParen => some (0x28, .closeParen)
  | _ => none

mutual

/-- `consume_component_value` (1187-1206). -/
def consumeValue : Nat → List Prim → Nat → Ends (Prim × Nat)
  | 0, _, _ => .more
  | f + 1, v, i =>
    match cur v i with
    | .tok t =>
      match opening t with
      | some (c, e) =>
        match blockLoop f v e (i + 1) with
        | .stop (xs, j) => .stop (.block c xs, j)
        | .ub => .ub
        | .more => .more
      | none =>
        match t with
        | .function n =>
          match fnLoop f v (i + 1) with
          | .stop (xs, j) => .stop (.fn n xs, j)
          | .ub => .ub
          | .more => .more
        | t =>
          match toValue (.tok t) with
          | some p => .stop (p, i + 1)
          | none => .ub
    | p =>
      match toValue p with
      | some p => .stop (p, i + 1)
      | none => .ub

/-- The loop of `consume_simple_block` (1239-1257). A wrong closing token falls through to the end of the input (1247-1250). -/
def blockLoop : Nat → List Prim → Token → Nat → Ends (List Prim × Nat)
  | 0, _, _, _ => .more
  | f + 1, v, e, i =>
    match cur v i with
    | .tok .closeCurly => if e = .closeCurly then .stop ([], i + 1) else .stop ([], i + 1)
    | .tok .closeSquare => if e = .closeSquare then .stop ([], i + 1) else .stop ([], i + 1)
    | .tok .closeParen => if e = .closeParen then .stop ([], i + 1) else .stop ([], i + 1)
    | .tok .eof => .stop ([], i + 1)
    | _ =>
      match consumeValue f v i with
      | .stop (x, j) =>
        match blockLoop f v e j with
        | .stop (xs, k) => .stop (x :: xs, k)
        | .ub => .ub
        | .more => .more
      | .ub => .ub
      | .more => .more

/-- The loop of `consume_function` (1277-1291). -/
def fnLoop : Nat → List Prim → Nat → Ends (List Prim × Nat)
  | 0, _, _ => .more
  | f + 1, v, i =>
    match cur v i with
    | .tok .closeParen => .stop ([], i + 1)
    | .tok .eof => .stop ([], i + 1)
    | _ =>
      match consumeValue f v i with
      | .stop (x, j) =>
        match fnLoop f v j with
        | .stop (xs, k) => .stop (x :: xs, k)
        | .ub => .ub
        | .more => .more
      | .ub => .ub
      | .more => .more

end

/-- The loop of `parse_list_of_component_values` (669-674). -/
def listLoop : Nat → List Prim → Nat → Ends (List Prim)
  | 0, _, _ => .more
  | f + 1, v, i =>
    match consumeValue f v i with
    | .stop (.tok .eof, _) => .stop []
    | .stop (x, j) =>
      match listLoop f v j with
      | .stop xs => .stop (x :: xs)
      | .ub => .ub
      | .more => .more
    | .ub => .ub
    | .more => .more

/-- `parse_list_of_component_values` (665-689). -/
def parseValues (f : Nat) (s : List Prim) : Ends (List Prim) := listLoop f (stream s) 0

/-- The loops of `parse_comma_separated_list_of_component_values` (728-747). The `break` only leaves the `switch`; the `v` that was moved
from is empty. `x` is `v`. -/
def commaLoop : Nat → List Prim → List Prim → Nat → Ends (List (List Prim))
  | 0, _, _, _ => .more
  | f + 1, v, x, i =>
    match consumeValue f v i with
    | .stop (.tok .eof, _) => .stop [x]
    | .stop (.tok .comma, j) =>
      match commaLoop f v [] j with
      | .stop xs => .stop (x :: xs)
      | .ub => .ub
      | .more => .more
    | .stop (y, j) => commaLoop f v (x ++ [y]) j
    | .ub => .ub
    | .more => .more

/-- `parse_comma_separated_list_of_component_values` (723-779). -/
def parseCommaValues (f : Nat) (s : List Prim) : Ends (List (List Prim)) := commaLoop f (stream s) [] 0

/-- `at_rule` and `qualified_rule` (token.hpp:409-462). -/
inductive Rule
  | at (name : List Nat) (prelude : List Prim) (block : Option Prim)
  | qualified (prelude : List Prim) (block : Prim)

/-- The loop of `consume_at_rule` (908-930): prelude and block. -/
def atLoop : Nat → List Prim → Nat → Ends (List Prim × Option Prim × Nat)
  | 0, _, _ => .more
  | f + 1, v, i =>
    let next : Unit → Ends (List Prim × Option Prim × Nat) := fun _ =>
      match consumeValue f v i with
      | .stop (x, j) =>
        match atLoop f v j with
        | .stop (xs, b, k) => .stop (x :: xs, b, k)
        | .ub => .ub
        | .more => .more
      | .ub => .ub
      | .more => .more
    match cur v i with
    | .tok .semicolon => .stop ([], none, i + 1)
    | .tok .eof => .stop ([], none, i + 1)
    | .tok .openCurly =>
      match blockLoop f v .closeCurly (i + 1) with
      | .stop (xs, j) => .stop ([], some (.block 0x7B xs), j)
      | .ub => .ub
      | .more => .more
    | .block c xs => if c = 0x7B then .stop ([], some (.block c xs), i + 1) else next ()
    | _ => next ()

/-- `consume_at_rule` (900-934). -/
def consumeAt (f : Nat) (v : List Prim) (i : Nat) : Ends (Rule × Nat) :=
  match cur v i with
  | .tok (.atKeyword n) =>
    match atLoop f v (i + 1) with
    | .stop (xs, b, j) => .stop (.at n xs b, j)
    | .ub => .ub
    | .more => .more
  | _ => .ub

/-- The loop of `consume_qualified_rule` (963-984): prelude and block; without a block there is no rule. -/
def qualLoop : Nat → List Prim → Nat → Ends (List Prim × Option Prim × Nat)
  | 0, _, _ => .more
  | f + 1, v, i =>
    let next : Unit → Ends (List Prim × Option Prim × Nat) := fun _ =>
      match consumeValue f v i with
      | .stop (x, j) =>
        match qualLoop f v j with
        | .stop (xs, b, k) => .stop (x :: xs, b, k)
        | .ub => .ub
        | .more => .more
      | .ub => .ub
      | .more => .more
    match cur v i with
    | .tok .eof => .stop ([], none, i + 1)
    | .tok .openCurly =>
      match blockLoop f v .closeCurly (i + 1) with
      | .stop (xs, j) => .stop ([], some (.block 0x7B xs), j)
      | .ub => .ub
      | .more => .more
    | .block c xs => if c = 0x7B then .stop ([], some (.block c xs), i + 1) else next ()
    | _ => next ()

/-- `consume_qualified_rule` (959-988). -/
def consumeQual (f : Nat) (v : List Prim) (i : Nat) : Ends (Option Rule × Nat) :=
  match qualLoop f v i with
  | .stop (xs, some b, j) => .stop (some (.qualified xs b), j)
  | .stop (_, none, j) => .stop (none, j)
  | .ub => .ub
  | .more => .more

/-- The loop of `consume_list_of_rules` (839-869). Without `top` a CDO or CDC token falls through from its qualified rule to the at-rule,
one token back (851-864). -/
def rulesLoop : Nat → Bool → List Prim → Nat → Ends (List Rule)
  | 0, _, _, _ => .more
  | f + 1, top, v, i =>
    let go (rs : List Rule) (j : Nat) : Ends (List Rule) :=
      match rulesLoop f top v j with
      | .stop xs => .stop (rs ++ xs)
      | .ub => .ub
      | .more => .more
    let at' (rs : List Rule) (j : Nat) : Ends (List Rule) :=
      match consumeAt f v j with
      | .stop (r, j) => go (rs ++ [r]) j
      | .ub => .ub
      | .more => .more
    let qual (k : List Rule → Nat → Ends (List Rule)) : Ends (List Rule) :=
      match consumeQual f v i with
      | .stop (r, j) => k r.toList j
      | .ub => .ub
      | .more => .more
    match cur v i with
    | .tok .whitespace => go [] (i + 1)
    | .tok .eof => .stop []
    | .tok .cdo => if top then go [] (i + 1) else qual fun rs j => at' rs (j - 1)
    | .tok .cdc => if top then go [] (i + 1) else qual fun rs j => at' rs (j - 1)
    | .tok (.atKeyword _) => at' [] i
    | _ => qual go

/-- `consume_list_of_rules` (833-873). -/
def consumeRules (f : Nat) (top : Bool) (s : List Prim) : Ends (List Rule) := rulesLoop f top (stream s) 0

/-- `parse_stylesheet` (316-348). -/
def parseStylesheet (f : Nat) (s : List Prim) : Ends (List Rule) := consumeRules f true s

/-- `parse_list_of_rules` (382-398). -/
def parseRules (f : Nat) (s : List Prim) : Ends (List Rule) := consumeRules f true s

/-- `while (in.next_input_token().type() == WhitespaceToken) in.consume()` (434, 449, 504, 610, 615, 1151, 1161); `none` is the assertion of
`next_input_token` (63-67). The second component is the next input token. -/
def skipWs (v : List Prim) (i : Nat) : Option (Nat × Prim) :=
  match (v.drop i).dropWhile fun p => match p with | .tok .whitespace => true | _ => false with
  | [] => none
  | p :: r => some (v.length - (r.length + 1), p)

/-- `parse_rule` (432-468). -/
def parseRule (f : Nat) (s : List Prim) : Ends (Option Rule) :=
  let v := stream s
  let done (r : Rule) (i : Nat) : Ends (Option Rule) :=
    match skipWs v i with
    | none => .ub
    | some (_, .tok .eof) => .stop (some r)
    | some _ => .stop none
  match skipWs v 0 with
  | none => .ub
  | some (_, .tok .eof) => .stop none
  | some (i, .tok (.atKeyword _)) =>
    match consumeAt f v i with
    | .stop (r, j) => done r j
    | .ub => .ub
    | .more => .more
  | some (i, _) =>
    match consumeQual f v i with
    | .stop (some r, j) => done r j
    | .stop (none, _) => .stop none
    | .ub => .ub
    | .more => .more

/-- `parse_component_value` (606-631). -/
def parseValue (f : Nat) (s : List Prim) : Ends (Option Prim) :=
  let v := stream s
  match skipWs v 0 with
  | none => .ub
  | some (_, .tok .eof) => .stop none
  | some (i, _) =>
    match consumeValue f v i with
    | .stop (x, j) =>
      match skipWs v j with
      | none => .ub
      | some (_, .tok .eof) => .stop (some x)
      | some _ => .stop none
    | .ub => .ub
    | .more => .more

/-- `declaration` (token.hpp:473-478). -/
structure Decl where
  name : List Nat
  value : List Prim
  important : Bool

/-- The loop of `process_important` (1096-1124) over the values from the back; `st` and the values are as there. The index has no sign, so
the loop does not end in front of the first value but reads there: `none`. The result is `v` if something was erased. -/
def importantLoop : Bool → List Prim → Option (Option (List Prim))
  | _, [] => none
  | st, p :: r =>
    match p with
    | .tok .whitespace => importantLoop st r
    | .tok (.ident n) =>
      if st then some none
      else
        match isAsciiCaseInsensitiveMatch .c32 .c32 n [0x69, 0x6D, 0x70, 0x6F, 0x72, 0x74, 0x61, 0x6E, 0x74] with
        | none => none
        | some true => importantLoop true r
        | some false => some none
    | .tok (.delim c) => if st = true ∧ c = 0x21 then some (some r.reverse) else some none
    | _ => some none

/-- `process_important` (1091-1127). -/
def processImportant (v : List Prim) : Option (Option (List Prim)) := importantLoop false v.reverse

/-- `while (in.next_input_token().type() != EofToken) decl.m_value.push_back(consume_component_value(in, handler))` (1163-1166) and the same
with semicolons (`semi`, 1040-1048, 1059-1067). -/
def untilLoop : Nat → Bool → List Prim → Nat → Ends (List Prim × Nat)
  | 0, _, _, _ => .more
  | f + 1, semi, v, i =>
    let next : Unit → Ends (List Prim × Nat) := fun _ =>
      match consumeValue f v i with
      | .stop (x, j) =>
        match untilLoop f semi v j with
        | .stop (xs, k) => .stop (x :: xs, k)
        | .ub => .ub
        | .more => .more
      | .ub => .ub
      | .more => .more
    match v[i]? with
    | none => .ub
    | some (.tok .eof) => .stop ([], i)
    | some (.tok .semicolon) => if semi then .stop ([], i) else next ()
    | some _ => next ()

/-- `while (!v.empty() && v.back().type() == WhitespaceToken) v.pop_back()` (1174). -/
def dropTrailing (v : List Prim) : List Prim :=
  (v.reverse.dropWhile fun p => match p with | .tok .whitespace => true | _ => false).reverse

/-- `consume_declaration` (1144-1177). -/
def consumeDecl (f : Nat) (v : List Prim) (i : Nat) : Ends (Option Decl) :=
  match cur v i with
  | .tok (.ident n) =>
    match skipWs v (i + 1) with
    | none => .ub
    | some (j, .tok .colon) =>
      match skipWs v (j + 1) with
      | none => .ub
      | some (k, _) =>
        match untilLoop f false v k with
        | .stop (xs, _) =>
          match processImportant xs with
          | none => .ub
          | some (some xs) => .stop (some ⟨n, dropTrailing xs, true⟩)
          | some none => .stop (some ⟨n, dropTrailing xs, false⟩)
        | .ub => .ub
        | .more => .more
    | some _ => .stop none
  | _ => .ub

/-- `parse_declaration` (502-523). Without an identifier it returns an empty declaration. -/
def parseDecl (f : Nat) (s : List Prim) : Ends (Option Decl) :=
  match skipWs (stream s) 0 with
  | none => .ub
  | some (i, .tok (.ident _)) => consumeDecl f (stream s) i
  | some _ => .stop (some ⟨[], [], false⟩)

/-- The loop of `consume_list_of_declarations` (1022-1070). -/
def declsLoop : Nat → List Prim → Nat → Ends (List (Rule ⊕ Decl))
  | 0, _, _ => .more
  | f + 1, v, i =>
    match cur v i with
    | .tok .whitespace => declsLoop f v (i + 1)
    | .tok .semicolon => declsLoop f v (i + 1)
    | .tok .eof => .stop []
    | .tok (.atKeyword _) =>
      match consumeAt f v i with
      | .stop (r, j) =>
        match declsLoop f v j with
        | .stop xs => .stop (.inl r :: xs)
        | .ub => .ub
        | .more => .more
      | .ub => .ub
      | .more => .more
    | .tok (.ident n) =>
      match untilLoop f true v (i + 1) with
      | .stop (xs, j) =>
        match consumeDecl f (stream (.tok (.ident n) :: xs)) 0 with
        | .stop d =>
          match declsLoop f v j with
          | .stop ys => .stop ((d.map Sum.inr).toList ++ ys)
          | .ub => .ub
          | .more => .more
        | .ub => .ub
        | .more => .more
      | .ub => .ub
      | .more => .more
    | _ =>
      match untilLoop f true v i with
      | .stop (_, j) => declsLoop f v j
      | .ub => .ub
      | .more => .more

/-- `parse_list_of_declarations` (557-572) and `consume_list_of_declarations` (1018-1074). -/
def parseDecls (f : Nat) (s : List Prim) : Ends (List (Rule ⊕ Decl)) := declsLoop f (stream s) 0

end Verif.Model.CssParse
