import Verif.Model.Labels
/-
Model of the encoding that a `meta` element declares: `whatwg/html/url.hpp` and the `meta` case of "in head"
(whatwg/html/parsing/tree_construction_dispatcher.hpp:1847-1876, 304-327).

A position in the text is what is left behind it.
-/
namespace Verif.Model.Meta
open Verif.Model.Infra Verif.Model.Legacy Verif.Model.Labels

/-- The literal `U"charset"` (url.hpp:42). -/
def key : List Nat := [99, 104, 97, 114, 115, 101, 116]

/-- `std::search(position, s1.end(), sv.begin(), sv.end())`, then `position += sv.size()` (url.hpp:50-52); `none` is the end. -/
def search : List Nat → Option (List Nat)
  | [] => none
  | c :: s => if key.isPrefixOf (c :: s) then some ((c :: s).drop 7) else search s

theorem search_length {s p : List Nat} (h : search s = some p) : p.length < s.length := by
  induction s with
  | nil => simp [search] at h
  | cons c s ih =>
    rw [search] at h
    split at h
    · cases h; simp; omega
    · have := ih h; simp; omega

/-- Steps 5 and 6 (url.hpp:57-75) behind the `=`. -/
def value (p : List Nat) : Option (Option Enc) :=
  match skipWhitespace .c32 p with
  | none => none
  | some [] => some none
  | some (q :: p) =>
    if q = 34 ∨ q = 39 then
      if q ∈ p then getEncodingName (p.takeWhile (· != q)) else some none
    else getEncodingName ((q :: p).takeWhile fun c => !(c == 59 || isAsciiWhiteSpace c))

theorem skip_length (p q : List Nat) (h : skipWhitespace .c32 p = some q) : q.length ≤ p.length := by
  induction p with
  | nil => rw [skipWhitespace] at h; simp at h; simp [← h]
  | cons c p ih =>
    rw [skipWhitespace] at h
    simp only [List.isEmpty_cons, Bool.false_eq_true, if_false] at h
    split at h
    · cases h
    · rename_i d r hd
      simp only [Verif.Model.Unicode.toCodePoint, Verif.Model.Unicode.toCodePoint32] at hd
      split at h
      · cases h; simp
      · have e : r = p := by grind
        subst e
        have := ih h
        simp; omega

/-- `Loop:` (url.hpp:49-75). -/
def loop (s : List Nat) : Option (Option Enc) :=
  match _h : search s with
  | none => some none
  | some p =>
    match _h' : skipWhitespace .c32 p with
    | none => none
    | some [] => loop []
    | some (c :: q) => if c = 61 then value q else loop (c :: q)
termination_by s.length
decreasing_by
  · have := search_length _h; simp; omega
  · have := search_length _h; have := skip_length _ _ _h'; simp at *; omega

/-- `extract_character_encoding_from_meta_element` (url.hpp:40-77): `none` = undefined behaviour, `some none` = the value 0. -/
def extract (s : List Nat) : Option (Option Enc) :=
  match toAsciiLowercase .c32 .c32 s with
  | none => none
  | some s1 => loop s1

/-- `std::find_if` over the attributes of a token by name (tree_construction_dispatcher.hpp:1854, 1865, 1871). -/
def attr (name : List Nat) : List (List Nat × List Nat) → Option (List Nat)
  | [] => none
  | (n, v) :: as => if n = name then some v else attr name as

/-- The literals of 1854, 1865, 1868 and 1871. -/
def nCharset : List Nat := key
def nHttpEquiv : List Nat := [104, 116, 116, 112, 45, 101, 113, 117, 105, 118]
def nContent : List Nat := [99, 111, 110, 116, 101, 110, 116]
def contentType : List Nat := [67, 111, 110, 116, 101, 110, 116, 45, 84, 121, 112, 101]

/-- The encoding with which the `meta` case (1854-1876) calls `change_encoding`: outer `none` = undefined behaviour. -/
def ofHttpEquiv (as : List (List Nat × List Nat)) : Option (Option Enc) :=
  match attr nHttpEquiv as with
  | none => some none
  | some v =>
    match isAsciiCaseInsensitiveMatch .c32 .c32 v contentType with
    | none => none
    | some false => some none
    | some true =>
      match attr nContent as with
      | none => some none
      | some c => extract c

/-- The same, from its beginning. -/
def declared (as : List (List Nat × List Nat)) : Option (Option Enc) :=
  match attr nCharset as with
  | none => ofHttpEquiv as
  | some v =>
    match getEncodingName v with
    | none => none
    | some (some e) => some (some e)
    | some none => ofHttpEquiv as

/-- `encoding_confidence_name` (whatwg/html/parsing/parser_defs.hpp). -/
inductive Confidence | tentative | certain | irrelevant
deriving DecidableEq

/-- `change_encoding` (304-327): the confidence, and the argument of `on_change_encoding` if it is called. `cur` is
`m_encoding_name`. -/
def change (cur name : Enc) : Option Enc :=
  if cur = .UTF_16BE ∨ cur = .UTF_16LE then none
  else
    let name := if name = .UTF_16BE ∨ name = .UTF_16LE then .UTF_8 else name
    let name := if name = .x_user_defined then .windows_1252 else name
    if name = cur then none else some name

end Verif.Model.Meta
