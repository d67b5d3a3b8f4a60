import Verif.Model.Host
/-
Model of include/wordring/wwwc/css_syntax/tokenization.hpp. The rest of the input is a list: an iterator is the list behind it.
Reading at `last`, and a failing assertion, is `none`. Error handlers are left out; they only report positions.
-/
namespace Verif.Model.CssTok
open Verif.Model.Infra Verif.Model.Unicode Verif.Model.Coder Verif.Model.Host

/-- `is_digit` (35). -/
def isDigit (c : Nat) : Bool := decide (0x30 ≤ c) && decide (c ≤ 0x39)

/-- `is_hex_digit` (37-40). -/
def isHexDigit (c : Nat) : Bool :=
  isDigit c || (decide (0x41 ≤ c) && decide (c ≤ 0x46)) || (decide (0x61 ≤ c) && decide (c ≤ 0x66))

/-- `is_letter` (42-46). -/
def isLetter (c : Nat) : Bool := (decide (0x41 ≤ c) && decide (c ≤ 0x5A)) || (decide (0x61 ≤ c) && decide (c ≤ 0x7A))

/-- `is_non_ascii_code_point` (48). -/
def isNonAscii (c : Nat) : Bool := decide (0x80 ≤ c) && decide (c ≤ 0x10FFFF)

/-- `is_identifier_start_code_point` (50-53). -/
def isIdentStart (c : Nat) : Bool := isLetter c || isNonAscii c || c == 0x5F

/-- `is_identifier_code_point` (55-58). -/
def isIdentCp (c : Nat) : Bool := isIdentStart c || isDigit c || c == 0x2D

/-- `is_non_printable_code_point` (60-63). -/
def isNonPrintable (c : Nat) : Bool := decide (c ≤ 0x08) || c == 0x0B || (decide (0x0E ≤ c) && decide (c ≤ 0x1F)) || c == 0x7F

/-- `is_newline` (65). -/
def isNewline (c : Nat) : Bool := c == 0x0A

/-- `is_whitespace` (67). -/
def isWs (c : Nat) : Bool := isNewline c || c == 0x09 || c == 0x20

/-- The parts of a number that `convert_string_to_number` (592-651) puts together in its last line: sign, integer part,
fractional part, number of fractional digits, sign and value of the exponent. The `double` is not modelled. -/
structure Num where
  neg : Bool
  i : Nat
  f : Nat
  d : Nat
  expNeg : Bool
  e : Nat
deriving DecidableEq, Repr

/-- Tokens (token.hpp:69-159). `int` is `number_type_flag_name::integer`, `id` is `hash_token::type_flag_name::id`. -/
inductive Token
  | ident (v : List Nat)
  | function (v : List Nat)
  | atKeyword (v : List Nat)
  | hash (v : List Nat) (id : Bool)
  | string (v : List Nat)
  | badString
  | url (v : List Nat)
  | badUrl
  | delim (c : Nat)
  | number (v : Num) (int : Bool)
  | percentage (v : Num)
  | dimension (v : Num) (unit : List Nat) (int : Bool)
  | whitespace | cdo | cdc | colon | semicolon | comma
  | openSquare | closeSquare | openParen | closeParen | openCurly | closeCurly
  | eof
deriving DecidableEq, Repr

/-- `starts_with_valid_escape` (449-453). -/
def validEscape : List Nat → Bool
  | a :: b :: _ => a == 0x5C && !isNewline b
  | _ => false

/-- `starts_with_identifier` (462-479). -/
def startsIdent : List Nat → Bool
  | [] => false
  | a :: r =>
    if a = 0x2D then
      match r with
      | [] => false
      | b :: _ => isIdentStart b || b == 0x2D || validEscape r
    else if isIdentStart a then true
    else if a = 0x5C then validEscape (a :: r)
    else false

/-- `starts_with_number` (488-516). -/
def startsNumber : List Nat → Bool
  | [] => false
  | a :: r =>
    if a = 0x2B ∨ a = 0x2D then
      match r with
      | [] => false
      | b :: r => isDigit b || (b == 0x2E && match r with | [] => false | c :: _ => isDigit c)
    else if a = 0x2E then match r with | [] => false | b :: _ => isDigit b
    else isDigit a

/-- The loop of `consume_escaped_code_point` (425): at most `n` digits. -/
def takeHex : Nat → List Nat → List Nat × List Nat
  | 0, r => ([], r)
  | _ + 1, [] => ([], [])
  | n + 1, c :: r => if isHexDigit c then let (s, r) := takeHex n r; (c :: s, r) else ([], c :: r)

/-- `if (first != last && is_whitespace(*first)) ++first` (426). -/
def skipOneWs : List Nat → List Nat
  | [] => []
  | c :: r => if isWs c then r else c :: r

/-- `consume_escaped_code_point` (413-440). -/
def consumeEscaped : List Nat → Option (List Nat × Nat)
  | [] => some ([], 0xFFFD)
  | cp :: r =>
    if isHexDigit cp then
      let (s, r) := takeHex 5 r
      let r := skipOneWs r
      match fromChars32 16 (cp :: s) with
      | none => none
      | some ch => some (r, if ch = 0 ∨ isSurrogate ch = true ∨ 0x10FFFF < ch then 0xFFFD else ch)
    else some (r, cp)

theorem takeHex_length (n : Nat) (r : List Nat) : (takeHex n r).2.length ≤ r.length := by
  induction n generalizing r with
  | zero => exact Nat.le_refl _
  | succ n ih =>
    cases r with
    | nil => exact Nat.le_refl _
    | cons c r =>
      rw [takeHex]
      split
      · have := ih r
        simp only [List.length_cons]; omega
      · exact Nat.le_refl _

theorem skipOneWs_length (r : List Nat) : (skipOneWs r).length ≤ r.length := by
  unfold skipOneWs
  split
  · exact Nat.le_refl _
  · split <;> simp

theorem consumeEscaped_length {r r' : List Nat} {c : Nat} (h : consumeEscaped r = some (r', c)) : r'.length ≤ r.length := by
  unfold consumeEscaped at h
  split at h
  · injection h with h; injection h with h; rw [← h]; exact Nat.le_refl _
  · rename_i cp r
    split at h
    · have h1 := takeHex_length 5 r
      have h2 := skipOneWs_length (takeHex 5 r).2
      dsimp only at h
      split at h
      · cases h
      · injection h with h; injection h with h; rw [← h]; simp only [List.length_cons]; omega
    · injection h with h; injection h with h; rw [← h]; simp

/-- `consume_identifier` (525-543), with the string so far. -/
def identLoop (s : List Nat) (r : List Nat) : Option (List Nat × List Nat) :=
  match r with
  | [] => some ([], s)
  | c :: r' =>
    if isIdentCp c then identLoop (s ++ [c]) r'
    else if validEscape (c :: r') then
      match _h : consumeEscaped r' with
      | none => none
      | some (r'', ch) => identLoop (s ++ [ch]) r''
    else some (c :: r', s)
termination_by r.length
decreasing_by
  · simp
  · have := consumeEscaped_length _h; simp only [List.length_cons]; omega

/-- `consume_identifier` (525-543). -/
def consumeIdent (r : List Nat) : Option (List Nat × List Nat) := identLoop [] r

/-- `while (first != last && is_digit(*first)) repr.push_back(*first++)` (561, 568, 578): the digits and the rest. -/
def takeDigits (r : List Nat) : List Nat × List Nat := (r.takeWhile isDigit, r.dropWhile isDigit)

/-- Step 2 of `consume_number` (559). -/
def takeSign : List Nat → List Nat × List Nat
  | [] => ([], [])
  | c :: r => if c = 0x2B ∨ c = 0x2D then ([c], r) else ([], c :: r)

/-- Step 4 of `consume_number` (563-569). -/
def takeFraction : List Nat → List Nat × List Nat
  | a :: b :: r =>
    if a = 0x2E ∧ isDigit b = true then let (s, r) := takeDigits r; (a :: b :: s, r) else ([], a :: b :: r)
  | r => ([], r)

/-- Step 5 of `consume_number` (571-579). -/
def takeExponent : List Nat → List Nat × List Nat
  | a :: b :: r =>
    if (a = 0x45 ∨ a = 0x65) ∧ isDigit b = true then let (s, r) := takeDigits r; (a :: b :: s, r)
    else
      match r with
      | c :: r' =>
        if (a = 0x45 ∨ a = 0x65) ∧ (b = 0x2B ∨ b = 0x2D) ∧ isDigit c = true then
          let (s, r'') := takeDigits r'; (a :: b :: c :: s, r'')
        else ([], a :: b :: r)
      | [] => ([], a :: b :: r)
  | r => ([], r)

/-- Digits in a `std::uint32_t` (606-614, 619-628, 640-648): nothing is 0, `none` is the assertion. -/
def digits32 (s : List Nat) : Option Nat := if s = [] then some 0 else fromChars32 10 s

/-- Step 3 of `convert_string_to_number` (616). -/
def skipPoint : List Nat → List Nat
  | [] => []
  | c :: t => if c = 0x2E then t else c :: t

/-- Step 5 of `convert_string_to_number` (630). -/
def skipE : List Nat → List Nat
  | [] => []
  | c :: t => if c = 0x45 ∨ c = 0x65 then t else c :: t

/-- `convert_string_to_number` (592-651) up to its last line. -/
def convertNumber (s : List Nat) : Option Num :=
  let (sign, s) := takeSign s
  let (ip, s) := takeDigits s
  match digits32 ip with
  | none => none
  | some i =>
    let (fp, s) := takeDigits (skipPoint s)
    match digits32 fp with
    | none => none
    | some f =>
      let (esign, s) := takeSign (skipE s)
      let (ep, _) := takeDigits s
      match digits32 ep with
      | none => none
      | some e => some ⟨decide (sign = [0x2D]), i, f, fp.length, decide (esign = [0x2D]), e⟩

/-- `consume_number` (552-583): the rest, the number and whether it is an integer. -/
def consumeNumber (r : List Nat) : Option (List Nat × Num × Bool) :=
  let (s1, r) := takeSign r
  let (s2, r) := takeDigits r
  let (s3, r) := takeFraction r
  let (s4, r) := takeExponent r
  match convertNumber (s1 ++ s2 ++ s3 ++ s4) with
  | none => none
  | some v => some (r, v, decide (s3 = [] ∧ s4 = []))

/-- `consume_numeric_token` (256-270). -/
def consumeNumeric (r : List Nat) : Option (List Nat × Token) :=
  match consumeNumber r with
  | none => none
  | some (r, v, int) =>
    if startsIdent r then
      match consumeIdent r with
      | none => none
      | some (r, u) => some (r, .dimension v u int)
    else
      match r with
      | [] => some ([], .number v int)
      | c :: r' => if c = 0x25 then some (r', .percentage v) else some (c :: r', .number v int)

/-- `consume_string_token` (308-343). -/
def stringLoop (ends : Nat) (s : List Nat) (r : List Nat) : Option (List Nat × Token) :=
  match r with
  | [] => some ([], .string s)
  | c :: r' =>
    if c = ends then some (r', .string s)
    else if isNewline c then some (c :: r', .badString)
    else if c = 0x5C then
      match r' with
      | [] => some ([], .string s)
      | d :: r'' =>
        if isNewline d then stringLoop ends s r''
        else
          match _h : consumeEscaped (d :: r'') with
          | none => none
          | some (r3, ch) => stringLoop ends (s ++ [ch]) r3
    else stringLoop ends (s ++ [c]) r'
termination_by r.length
decreasing_by
  · simp only [List.length_cons]; omega
  · have := consumeEscaped_length _h; simp only [List.length_cons] at *; omega
  · simp

/-- `consume_string_token` (308-343). -/
def consumeString (ends : Nat) (r : List Nat) : Option (List Nat × Token) := stringLoop ends [] r

/-- `consume_remnants_of_bad_url` (660-675). -/
def badUrlLoop (r : List Nat) : Option (List Nat) :=
  match r with
  | [] => some []
  | c :: r' =>
    if c = 0x29 then some r'
    else if validEscape (c :: r') then
      match _h : consumeEscaped r' with
      | none => none
      | some (r'', _) => badUrlLoop r''
    else badUrlLoop r'
termination_by r.length
decreasing_by
  · have := consumeEscaped_length _h; simp only [List.length_cons]; omega
  · simp

/-- `bad_url_token` behind `consume_remnants_of_bad_url` (374-375, 381-382, 395-396). -/
def badUrl (r : List Nat) : Option (List Nat × Token) :=
  match badUrlLoop r with
  | none => none
  | some r => some (r, .badUrl)

/-- The loop of `consume_url_token` (358-400). Behind an escape `first` is not moved (389-390). -/
def urlLoop : List Nat → List Nat → Option (List Nat × Token)
  | s, [] => some ([], .url s)
  | s, c :: r =>
    if c = 0x29 then some (r, .url s)
    else if isWs c then
      match r.dropWhile isWs with
      | [] => some ([], .url s)
      | d :: r' => if d = 0x29 then some (r', .url s) else badUrl (d :: r')
    else if c = 0x22 ∨ c = 0x27 ∨ c = 0x28 ∨ isNonPrintable c = true then badUrl r
    else if c = 0x5C then
      if validEscape r then
        match consumeEscaped r with
        | none => none
        | some (_, ch) => urlLoop (s ++ [ch]) r
      else badUrl r
    else urlLoop (s ++ [c]) r

/-- `consume_url_token` (352-404). -/
def consumeUrl (r : List Nat) : Option (List Nat × Token) := urlLoop [] (r.dropWhile isWs)

/-- The loop of `consume_ident_like_token` (290); `p` is the code point before the iterator. -/
def skipWsPairs : Nat → List Nat → Nat × List Nat
  | p, a :: b :: r => if isWs a && isWs b then skipWsPairs a (b :: r) else (p, a :: b :: r)
  | p, r => (p, r)

/-- The condition of step 3 of `consume_ident_like_token` (291-292). -/
def quoteAhead : List Nat → Bool
  | [] => false
  | [a] => a == 0x22 || a == 0x27
  | a :: b :: _ => a == 0x22 || a == 0x27 || (isWs a && (b == 0x22 || b == 0x27))

/-- `U"url"`. -/
def urlName : List Nat := [0x75, 0x72, 0x6C]

/-- `consume_ident_like_token` (279-299). `*it` is read without a check for `last` (287); `--it` (292). -/
def consumeIdentLike (r : List Nat) : Option (List Nat × Token) :=
  match consumeIdent r with
  | none => none
  | some (r, s) =>
    match isAsciiCaseInsensitiveMatch .c32 .c32 s urlName with
    | none => none
    | some m =>
      match m, r with
      | true, [] => none
      | false, [] => some ([], .ident s)
      | m, c :: r =>
        if c = 0x28 then
          if m then
            let (p, r) := skipWsPairs c r
            if quoteAhead r then some (p :: r, .function s) else consumeUrl r
          else some (r, .function s)
        else some (c :: r, .ident s)

/-- `std::search` for `*/` (236-238) and the advance behind it. -/
def afterComment : List Nat → List Nat
  | a :: b :: r => if a = 0x2A ∧ b = 0x2F then r else afterComment (b :: r)
  | _ => []

theorem afterComment_length (r : List Nat) : (afterComment r).length ≤ r.length := by
  induction r with
  | nil => simp [afterComment]
  | cons a r ih =>
    cases r with
    | nil => simp [afterComment]
    | cons b r =>
      rw [afterComment]
      split
      · simp only [List.length_cons]; omega
      · simp only [List.length_cons] at *; omega

/-- `consume_comments` (230-247). -/
def consumeComments (r : List Nat) : List Nat :=
  match r with
  | a :: b :: r' => if a = 0x2F ∧ b = 0x2A then consumeComments (afterComment r') else a :: b :: r'
  | r => r
termination_by r.length
decreasing_by have := afterComment_length r'; simp only [List.length_cons]; omega

/-- `case U'\x23'` of `consume_token` (145-158). `*it` is read without a check for `last` (146). -/
def onHash : List Nat → Option (List Nat × Token)
  | [] => none
  | d :: r =>
    if isIdentCp d || validEscape (d :: r) then
      match consumeIdent (d :: r) with
      | none => none
      | some (r', s) => some (r', .hash s (startsIdent (d :: r)))
    else some (d :: r, .delim 0x23)

/-- `case U'\x2D'` of `consume_token` (170-178). -/
def onMinus (r : List Nat) : Option (List Nat × Token) :=
  if startsNumber r then consumeNumeric (0x2D :: r)
  else
    match r with
    | a :: b :: r' =>
      if a = 0x2D ∧ b = 0x3E then some (r', .cdc)
      else if startsIdent r then consumeIdentLike (0x2D :: r) else some (r, .delim 0x2D)
    | r => if startsIdent r then consumeIdentLike (0x2D :: r) else some (r, .delim 0x2D)

/-- `case U'\x3C'` of `consume_token` (186-192). -/
def onLess : List Nat → List Nat × Token
  | a :: b :: c :: r => if a = 0x21 ∧ b = 0x2D ∧ c = 0x2D then (r, .cdo) else (a :: b :: c :: r, .delim 0x3C)
  | r => (r, .delim 0x3C)

/-- `consume_token` (127-221) behind the comments. -/
def tokenAt : List Nat → Option (List Nat × Token)
  | [] => some ([], .eof)
  | c :: r =>
    if isWs c then some (r.dropWhile isWs, .whitespace)
    else if c = 0x22 ∨ c = 0x27 then consumeString c r
    else if c = 0x23 then onHash r
    else if c = 0x28 then some (r, .openParen)
    else if c = 0x29 then some (r, .closeParen)
    else if c = 0x2B then if startsNumber r then consumeNumeric (c :: r) else some (r, .delim c)
    else if c = 0x2C then some (r, .comma)
    else if c = 0x2D then onMinus r
    else if c = 0x2E then if startsNumber r then consumeNumeric (c :: r) else some (r, .delim c)
    else if c = 0x3A then some (r, .colon)
    else if c = 0x3B then some (r, .semicolon)
    else if c = 0x3C then some (onLess r)
    else if c = 0x40 then
      if startsIdent r then
        match consumeIdent r with
        | none => none
        | some (r', s) => some (r', .atKeyword s)
      else some (r, .delim c)
    else if c = 0x5B then some (r, .openSquare)
    else if c = 0x5C then if validEscape (c :: r) then consumeIdentLike (c :: r) else some (r, .delim c)
    else if c = 0x5D then some (r, .closeSquare)
    else if c = 0x7B then some (r, .openCurly)
    else if c = 0x7D then some (r, .closeCurly)
    else if isDigit c then consumeNumeric (c :: r)
    else if isIdentStart c then consumeIdentLike (c :: r)
    else some (r, .delim c)

/-- `consume_token` (127-221). -/
def consumeToken (r : List Nat) : Option (List Nat × Token) := tokenAt (consumeComments r)

/-- `tokenize` (681-691), at most `fuel` calls: the tokens. -/
def tokenize : Nat → List Nat → Ends (List Token)
  | 0, _ => .more
  | fuel + 1, r =>
    match consumeToken r with
    | none => .ub
    | some (_, .eof) => .stop []
    | some (r', t) =>
      match tokenize fuel r' with
      | .stop ts => .stop (t :: ts)
      | .ub => .ub
      | .more => .more

end Verif.Model.CssTok
