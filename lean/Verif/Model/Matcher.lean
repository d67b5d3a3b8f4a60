/-
Model of include/wordring/string/matcher.hpp (string_matcher). Characters are numbers.
`none` = reading past the end of a candidate string.
-/
namespace Verif.Model.Matcher

/-- matcher.hpp:21-26. -/
inductive Result
  | more  -- match_result::partial
  | succeed
  | failed
deriving DecidableEq, Repr

/-- `container_entry` (28-36). -/
structure Entry where
  str : List Nat
  failed : Bool
deriving DecidableEq, Repr

/-- `m_c` and `m_s` (106-107). -/
structure Matcher where
  entries : List Entry
  seen : List Nat
deriving DecidableEq, Repr

/-- The constructor (45-48). -/
def mk (cs : List (List Nat)) : Matcher := ⟨cs.map (⟨·, false⟩), []⟩

/-- `clear()` (65-69). -/
def clear (m : Matcher) : Matcher := ⟨m.entries.map ({ · with failed := false }), []⟩

/-- The loop of `push_back` (90-100). `size` is `m_s.size()` after the push, `n` the number of failed entries so far.
Returns the entries after the loop, `n`, and whether line 97 returned early. -/
def scan (pos ch size : Nat) : List Entry → Nat → Option (List Entry × Nat × Bool)
  | [], n => some ([], n, false)
  | e :: es, n =>
    if e.failed || e.str.length == pos then
      (scan pos ch size es (n + 1)).map fun r => ({ e with failed := true } :: r.1, r.2)
    else match e.str[pos]? with
      | none => none
      | some c =>
        if c ≠ ch then (scan pos ch size es (n + 1)).map fun r => ({ e with failed := true } :: r.1, r.2)
        else if size = e.str.length then some (e :: es, n, true)
        else (scan pos ch size es n).map fun r => (e :: r.1, r.2)

/-- `push_back(ch)` (81-103). -/
def pushBack (m : Matcher) (ch : Nat) : Option (Matcher × Result) :=
  let pos := m.seen.length
  let s := m.seen ++ [ch]
  (scan pos ch s.length m.entries 0).map fun r =>
    (⟨r.1, s⟩, if r.2.2 then .succeed else if r.2.1 = m.entries.length then .failed else .more)

end Verif.Model.Matcher
