import Verif.Spec.Host
import Verif.Spec.Unicode
import Mathlib.Data.Rat.Defs
import Mathlib.Algebra.Order.Ring.Rat
/-
Tokens of CSS Syntax Level 3, section 4, as relations between the text, what is found in front of it and the rest behind that.
-/
namespace Verif.Spec.CssTok
open Verif.Spec Verif.Spec.Infra Verif.Spec.Percent Verif.Spec.Host

/-- Tokens; numbers have their exact value, `int` is the type flag "integer", `id` the type flag "id". -/
inductive Tok
  | ident (v : List Nat)
  | function (v : List Nat)
  | atKeyword (v : List Nat)
  | hash (v : List Nat) (id : Bool)
  | string (v : List Nat)
  | badString
  | url (v : List Nat)
  | badUrl
  | delim (c : Nat)
  | number (q : ℚ) (int : Bool)
  | percentage (q : ℚ)
  | dimension (q : ℚ) (unit : List Nat) (int : Bool)
  | whitespace | cdo | cdc | colon | semicolon | comma
  | openSquare | closeSquare | openParen | closeParen | openCurly | closeCurly
  | eof
deriving DecidableEq

/-- The text begins with a code point with the property. -/
def Starts (P : Nat → Prop) (s : List Nat) : Prop := ∃ c r, s = c :: r ∧ P c

def Newline (c : Nat) : Prop := c = 0x0A
def Ws (c : Nat) : Prop := c = 0x0A ∨ c = 0x09 ∨ c = 0x20
def Digit (c : Nat) : Prop := 0x30 ≤ c ∧ c ≤ 0x39
def Hex (c : Nat) : Prop := ∃ v, HexDigit c v
def Letter (c : Nat) : Prop := (0x41 ≤ c ∧ c ≤ 0x5A) ∨ (0x61 ≤ c ∧ c ≤ 0x7A)
def IdentStart (c : Nat) : Prop := Letter c ∨ (0x80 ≤ c ∧ c ≤ 0x10FFFF) ∨ c = 0x5F
def IdentCp (c : Nat) : Prop := IdentStart c ∨ Digit c ∨ c = 0x2D
def NonPrintable (c : Nat) : Prop := c ≤ 0x08 ∨ c = 0x0B ∨ (0x0E ≤ c ∧ c ≤ 0x1F) ∨ c = 0x7F
def Quote (c : Nat) : Prop := c = 0x22 ∨ c = 0x27

/-- A reverse solidus not followed by a newline. -/
def ValidEscape (s : List Nat) : Prop := ∃ r, s = 0x5C :: r ∧ ¬ Starts Newline r

/-- The text would start an identifier. -/
def StartsIdent (s : List Nat) : Prop :=
  Starts IdentStart s ∨ ValidEscape s ∨ ∃ r, s = 0x2D :: r ∧ (Starts IdentStart r ∨ Starts (· = 0x2D) r ∨ ValidEscape r)

/-- The code point an escape with a number stands for. -/
def escaped (n : Nat) : Nat := if n = 0 ∨ ¬ IsScalar n then 0xFFFD else n

/-- What stands behind the reverse solidus of an escape: nothing, a code point that is no hex digit, or one to six hex digits - as
many as there are - and up to one whitespace. -/
inductive Escape : List Nat → Nat → List Nat → Prop
  | eof : Escape [] 0xFFFD []
  | plain {c : Nat} {r : List Nat} : ¬ Hex c → Escape (c :: r) c r
  | hex {d w r : List Nat} {n : Nat} : Numeral 16 d n → d.length ≤ 6 → (d.length = 6 ∨ ¬ Starts Hex (w ++ r)) →
      ((w = [] ∧ ¬ Starts Ws r) ∨ ∃ c, Ws c ∧ w = [c]) → Escape (d ++ w ++ r) (escaped n) r

/-- The longest identifier in front and its value. -/
inductive Name : List Nat → List Nat → List Nat → Prop
  | stop {s : List Nat} : ¬ Starts IdentCp s → ¬ ValidEscape s → Name s [] s
  | cp {c : Nat} {s v r : List Nat} : IdentCp c → Name s v r → Name (c :: s) (c :: v) r
  | esc {c : Nat} {s t v r : List Nat} : ValidEscape (0x5C :: s) → Escape s c t → Name t v r → Name (0x5C :: s) (c :: v) r

/-- An optional sign. -/
inductive Sign : List Nat → ℚ → Prop
  | none : Sign [] 1
  | plus : Sign [0x2B] 1
  | minus : Sign [0x2D] (-1)

/-- A number without exponent, its value and whether it is an integer. -/
inductive Mantissa : List Nat → ℚ → Bool → Prop
  | int {a i : List Nat} {x : ℚ} {n : Nat} : Sign a x → Numeral 10 i n → Mantissa (a ++ i) (x * n) true
  | frac {a i f : List Nat} {x : ℚ} {n : Nat} : Sign a x → f ≠ [] → Numeral 10 (i ++ f) n →
      Mantissa (a ++ i ++ 0x2E :: f) (x * n / 10 ^ f.length) false

/-- A number. -/
inductive Number : List Nat → ℚ → Bool → Prop
  | plain {m : List Nat} {q : ℚ} {b : Bool} : Mantissa m q b → Number m q b
  | up {m a e : List Nat} {q : ℚ} {b : Bool} {c n : Nat} : Mantissa m q b → (c = 0x45 ∨ c = 0x65) → Sign a 1 → Numeral 10 e n →
      Number (m ++ c :: a ++ e) (q * 10 ^ n) false
  | down {m e : List Nat} {q : ℚ} {b : Bool} {c n : Nat} : Mantissa m q b → (c = 0x45 ∨ c = 0x65) → Numeral 10 e n →
      Number (m ++ c :: 0x2D :: e) (q / 10 ^ n) false

/-- The text would start a number. -/
def StartsNumber (s : List Nat) : Prop := ∃ t q b, Number t q b ∧ t <+: s

/-- `t` is the longest number in front of the text. -/
def Longest (s t : List Nat) : Prop := ∀ t' q b, Number t' q b → t' <+: s → t'.length ≤ t.length

/-- The longest number in front. -/
def NumberAt (s : List Nat) (q : ℚ) (b : Bool) (r : List Nat) : Prop := ∃ t, s = t ++ r ∧ Number t q b ∧ Longest s t

/-- The inside of a string up to where it ends: behind the quote or at the end of the text, or (`false`) before a newline. -/
inductive Str (q : Nat) : List Nat → List Nat → Bool → List Nat → Prop
  | eof : Str q [] [] true []
  | close {r : List Nat} : Str q (q :: r) [] true r
  | newline {r : List Nat} : Str q (0x0A :: r) [] false (0x0A :: r)
  | last : Str q [0x5C] [] true []
  | fold {s v r : List Nat} {b : Bool} : Str q s v b r → Str q (0x5C :: 0x0A :: s) v b r
  | esc {c : Nat} {s t v r : List Nat} {b : Bool} : s ≠ [] → ¬ Starts Newline s → Escape s c t → Str q t v b r →
      Str q (0x5C :: s) (c :: v) b r
  | cp {c : Nat} {s v r : List Nat} {b : Bool} : c ≠ q → ¬ Newline c → c ≠ 0x5C → Str q s v b r → Str q (c :: s) (c :: v) b r

/-- The rest behind a bad url. -/
inductive Remnants : List Nat → List Nat → Prop
  | eof : Remnants [] []
  | close {r : List Nat} : Remnants (0x29 :: r) r
  | esc {c : Nat} {s t r : List Nat} : ValidEscape (0x5C :: s) → Escape s c t → Remnants t r → Remnants (0x5C :: s) r
  | cp {c : Nat} {s r : List Nat} : c ≠ 0x29 → ¬ ValidEscape (c :: s) → Remnants s r → Remnants (c :: s) r

/-- A code point that stands for itself in an unquoted url. -/
def UrlCp (c : Nat) : Prop := ¬ Ws c ∧ ¬ Quote c ∧ c ≠ 0x28 ∧ c ≠ 0x29 ∧ c ≠ 0x5C ∧ ¬ NonPrintable c

/-- Some code points and escapes of an unquoted url in front. -/
inductive UrlText : List Nat → List Nat → List Nat → Prop
  | nil {s : List Nat} : UrlText s [] s
  | cp {c : Nat} {s v r : List Nat} : UrlCp c → UrlText s v r → UrlText (c :: s) (c :: v) r
  | esc {c : Nat} {s t v r : List Nat} : ValidEscape (0x5C :: s) → Escape s c t → UrlText t v r → UrlText (0x5C :: s) (c :: v) r

/-- An unquoted url, behind the parenthesis and whitespace. -/
inductive Url : List Nat → Tok → List Nat → Prop
  | eof {s v w : List Nat} : UrlText s v w → (∀ c ∈ w, Ws c) → Url s (.url v) []
  | close {s v w r : List Nat} : UrlText s v (w ++ 0x29 :: r) → (∀ c ∈ w, Ws c) → Url s (.url v) r
  | inner {s v w r' r : List Nat} : UrlText s v (w ++ r') → w ≠ [] → (∀ c ∈ w, Ws c) → r' ≠ [] → ¬ Starts Ws r' →
      ¬ Starts (· = 0x29) r' → Remnants r' r → Url s .badUrl r
  | bad {s v r' r : List Nat} {c : Nat} : UrlText s v (c :: r') → (Quote c ∨ c = 0x28 ∨ NonPrintable c) → Remnants r' r →
      Url s .badUrl r
  | slash {s v r' r : List Nat} : UrlText s v (0x5C :: r') → Starts Newline r' → Remnants r' r → Url s .badUrl r

/-- Comments in front: `/*` up to the first `*/` behind it or the end. -/
inductive Comments : List Nat → List Nat → Prop
  | none {s : List Nat} : ¬ [0x2F, 0x2A] <+: s → Comments s s
  | closed {b s r : List Nat} : ¬ [0x2A, 0x2F] <:+: b ++ [0x2A] → Comments s r → Comments ([0x2F, 0x2A] ++ b ++ [0x2A, 0x2F] ++ s) r
  | «open» {b : List Nat} : ¬ [0x2A, 0x2F] <:+: b → Comments ([0x2F, 0x2A] ++ b) []

/-- Code points that are tokens. -/
def punct : List (Nat × Tok) :=
  [(0x28, .openParen), (0x29, .closeParen), (0x2C, .comma), (0x3A, .colon), (0x3B, .semicolon), (0x5B, .openSquare),
   (0x5D, .closeSquare), (0x7B, .openCurly), (0x7D, .closeCurly)]

/-- The name is `url` in any case. -/
def IsUrl (v : List Nat) : Prop := v.map lower = codes "url"
instance (v : List Nat) : Decidable (IsUrl v) := by unfold IsUrl; infer_instance

def Cdc : List Nat := codes "-->"
def Cdo : List Nat := codes "<!--"

/-- What may follow `url(` so that the argument is a string: whitespace and a quote. -/
def Quoted (s : List Nat) : Prop := ∃ w r, s = w ++ r ∧ (∀ c ∈ w, Ws c) ∧ Starts Quote r

/-- An identifier other than `-->`. -/
def IdentLike (s v r : List Nat) : Prop := StartsIdent s ∧ ¬ Cdc <+: s ∧ Name s v r

/-- A token other than a delimiter in front of a text that does not begin with a comment, and the rest behind it. -/
inductive Proper : List Nat → Tok → List Nat → Prop
  | eof : Proper [] .eof []
  | whitespace {w r : List Nat} : w ≠ [] → (∀ c ∈ w, Ws c) → ¬ Starts Ws r → Proper (w ++ r) .whitespace r
  | string {q : Nat} {s v r : List Nat} : Quote q → Str q s v true r → Proper (q :: s) (.string v) r
  | badString {q : Nat} {s v r : List Nat} : Quote q → Str q s v false r → Proper (q :: s) .badString r
  | hash {s v r : List Nat} {b : Bool} : (Starts IdentCp s ∨ ValidEscape s) → Name s v r → (b = true ↔ StartsIdent s) →
      Proper (0x23 :: s) (.hash v b) r
  | punct {c : Nat} {t : Tok} {r : List Nat} : (c, t) ∈ punct → Proper (c :: r) t r
  | number {s r : List Nat} {q : ℚ} {b : Bool} : NumberAt s q b r → ¬ StartsIdent r → ¬ Starts (· = 0x25) r →
      Proper s (.number q b) r
  | percentage {s r : List Nat} {q : ℚ} {b : Bool} : NumberAt s q b (0x25 :: r) → Proper s (.percentage q) r
  | dimension {s u v r : List Nat} {q : ℚ} {b : Bool} : NumberAt s q b u → StartsIdent u → Name u v r → Proper s (.dimension q v b) r
  | cdc {r : List Nat} : Proper (Cdc ++ r) .cdc r
  | cdo {r : List Nat} : Proper (Cdo ++ r) .cdo r
  | atKeyword {s v r : List Nat} : StartsIdent s → Name s v r → Proper (0x40 :: s) (.atKeyword v) r
  | ident {s v r : List Nat} : IdentLike s v r → ¬ Starts (· = 0x28) r → Proper s (.ident v) r
  | function {s v r : List Nat} : IdentLike s v (0x28 :: r) → ¬ IsUrl v → Proper s (.function v) r
  /-- The whitespace in front of the quote is taken but for one. -/
  | quoted {s v w r : List Nat} : IdentLike s v (0x28 :: w ++ r) → IsUrl v → (∀ c ∈ w, Ws c) → (w = [] ∨ Starts Ws r) →
      (Starts Quote r ∨ ∃ c r', r = c :: r' ∧ Ws c ∧ Starts Quote r') → Proper s (.function v) r
  | url {s v w r' r : List Nat} {t : Tok} : IdentLike s v (0x28 :: w ++ r') → IsUrl v → (∀ c ∈ w, Ws c) → ¬ Starts Ws r' →
      ¬ Starts Quote r' → Url r' t r → Proper s t r

/-- A token in front of a text that does not begin with a comment: a delimiter if nothing else. -/
def TokenAt (s : List Nat) (t : Tok) (r : List Nat) : Prop :=
  Proper s t r ∨ (¬ (∃ t' r', Proper s t' r') ∧ ∃ c, s = c :: r ∧ t = .delim c)

/-- "Consume a token". -/
def Token (s : List Nat) (t : Tok) (r : List Nat) : Prop := ∃ s', Comments s s' ∧ TokenAt s' t r

/-- Some run of digits has a value of 2^32 or more. -/
def Large (t : List Nat) : Prop := ∃ d n, d <:+: t ∧ Numeral 10 d n ∧ 2 ^ 32 ≤ n

/-- The texts, without comments in front, for which the library departs from the standard. -/
inductive Quirk : List Nat → Prop
  /-- `#` is the last code point. -/
  | hash : Quirk [0x23]
  /-- A sign or a full stop in front of something that itself starts a number. -/
  | number {c : Nat} {r : List Nat} : (c = 0x2B ∨ c = 0x2D ∨ c = 0x2E) → ¬ StartsNumber (c :: r) → StartsNumber r → Quirk (c :: r)
  /-- Two hyphens and nothing that would make the second hyphen start an identifier or a number. -/
  | dashes {r : List Nat} : ¬ Cdc <+: 0x2D :: 0x2D :: r → ¬ StartsNumber (0x2D :: r) → ¬ StartsIdent (0x2D :: r) →
      Quirk (0x2D :: 0x2D :: r)
  /-- Digits that do not fit into 32 bits. -/
  | large {s t : List Nat} {q : ℚ} {b : Bool} : Number t q b → t <+: s → Longest s t → Large t → Quirk s
  /-- `url` at the end. -/
  | urlEnd {s v : List Nat} : IdentLike s v [] → IsUrl v → Quirk s
  /-- `url(` and a quoted string. -/
  | urlQuoted {s v r : List Nat} : IdentLike s v (0x28 :: r) → IsUrl v → Quoted r → Quirk s
  /-- An unquoted url with an escape. -/
  | urlEscape {s v w r v' r' : List Nat} : IdentLike s v (0x28 :: w ++ r) → IsUrl v → (∀ c ∈ w, Ws c) → ¬ Starts Ws r →
      UrlText r v' (0x5C :: r') → ValidEscape (0x5C :: r') → Quirk s

/-- A full stop in front of a number, both not a number together: `..5`, `.+5`. -/
def Stuck (s : List Nat) : Prop := ∃ r, s = 0x2E :: r ∧ ¬ StartsNumber s ∧ StartsNumber r

/-- `url` in any case up to the end of the text. -/
def UrlAtEnd (s : List Nat) : Prop := ∃ v, StartsIdent s ∧ Name s v [] ∧ IsUrl v

/-- A number with digits that do not fit. -/
def LargeNumber (s : List Nat) : Prop := ∃ t q b, Number t q b ∧ t <+: s ∧ Longest s t ∧ Large t

/-- The tokens of a text. -/
inductive Tokens : List Nat → List Tok → Prop
  | eof {s r : List Nat} : Token s .eof r → Tokens s []
  | cons {s r : List Nat} {t : Tok} {ts : List Tok} : Token s t r → t ≠ .eof → Tokens r ts → Tokens s (t :: ts)

end Verif.Spec.CssTok
