import Verif.Spec.CssTok
import Verif.Model.CssParse
/-
The parser of CSS Syntax Level 3 (section 5, as of 2021) as relations between a list of tokens (or component values) and what is found in
front of it. The end of the list is the end of the file.

`any` is the rule by which simple blocks end: `false` as in the standard, with the closing token that belongs to the opening one only;
`true` with any closing token.
`o` counts how many blocks, functions and rules were still open at the end of the list.
-/
namespace Verif.Spec.CssParse
open Verif.Model.CssTok Verif.Model.CssParse

/-- Tokens, functions and simple blocks only, and no end of file in between: the inputs of the parser. -/
def Plain (s : List Prim) : Prop := ∀ p ∈ s, p ≠ .tok .eof ∧ p ≠ .other

/-- Tokens only. -/
def AllTok (s : List Prim) : Prop := ∀ p ∈ s, ∃ t, p = .tok t

/-- Closing tokens. -/
def Closer (t : Token) : Prop := t = .closeCurly ∨ t = .closeSquare ∨ t = .closeParen

/-- A token that is a component value by itself. -/
def Preserved (t : Token) : Prop := t ≠ .openCurly ∧ t ≠ .openSquare ∧ t ≠ .openParen ∧ (∀ n, t ≠ .function n) ∧ t ≠ .eof

/-- The opening tokens with the code point of the block and the closing token. -/
inductive Pair : Token → Nat → Token → Prop
  | curly : Pair .openCurly 0x7B .closeCurly
  | square : Pair .openSquare 0x5B .closeSquare
  | paren : Pair .openParen 0x28 .closeParen

/-- The token ends a block that needs `e`. -/
def EndsBlock (any : Bool) (e t : Token) : Prop := t = e ∨ (any = true ∧ Closer t)

mutual

/-- "Consume a component value". -/
inductive Value (any : Bool) : List Prim → Prim → List Prim → Nat → Prop
  | token {t : Token} {r : List Prim} : Preserved t → Value any (.tok t :: r) (.tok t) r 0
  | givenFn {n : List Nat} {vs r : List Prim} : Value any (.fn n vs :: r) (.fn n vs) r 0
  | givenBlock {c : Nat} {vs r : List Prim} : Value any (.block c vs :: r) (.block c vs) r 0
  | block {t e : Token} {c o : Nat} {s vs r : List Prim} : Pair t c e → Items any (EndsBlock any e) s vs r o →
      Value any (.tok t :: s) (.block c vs) r o
  | fn {n : List Nat} {o : Nat} {s vs r : List Prim} : Items any (· = .closeParen) s vs r o →
      Value any (.tok (.function n) :: s) (.fn n vs) r o

/-- The inside of a block or function, that ends with a token for which `E` holds. -/
inductive Items (any : Bool) : (Token → Prop) → List Prim → List Prim → List Prim → Nat → Prop
  | eof {E : Token → Prop} : Items any E [] [] [] 1
  | close {E : Token → Prop} {t : Token} {r : List Prim} : E t → Items any E (.tok t :: r) [] r 0
  | cons {E : Token → Prop} {p x : Prim} {s r r' vs : List Prim} {o o' : Nat} : (∀ t, p = .tok t → ¬ E t) → Value any (p :: s) x r o →
      Items any E r vs r' o' → Items any E (p :: s) (x :: vs) r' (o + o')

end

/-- "Parse a list of component values". -/
inductive Values (any : Bool) : List Prim → List Prim → Prop
  | nil : Values any [] []
  | cons {s r vs : List Prim} {x : Prim} {o : Nat} : Value any s x r o → Values any r vs → Values any s (x :: vs)

/-- The prelude and block of a rule; `semi` says whether a semicolon ends it. Without a block there is `none`. -/
inductive Prelude (any semi : Bool) : List Prim → List Prim → Option Prim → List Prim → Nat → Prop
  | eof : Prelude any semi [] [] none [] 1
  | semi {r : List Prim} : semi = true → Prelude any semi (.tok .semicolon :: r) [] none r 0
  | curly {s vs r : List Prim} {o : Nat} : Items any (EndsBlock any .closeCurly) s vs r o →
      Prelude any semi (.tok .openCurly :: s) [] (some (.block 0x7B vs)) r o
  | given {vs r : List Prim} : Prelude any semi (.block 0x7B vs :: r) [] (some (.block 0x7B vs)) r 0
  | cons {p x : Prim} {s r r' vs : List Prim} {b : Option Prim} {o o' : Nat} : (semi = true → p ≠ .tok .semicolon) →
      p ≠ .tok .openCurly → (∀ vs, p ≠ .block 0x7B vs) → Value any (p :: s) x r o → Prelude any semi r vs b r' o' →
      Prelude any semi (p :: s) (x :: vs) b r' (o + o')

/-- "Consume an at-rule" and "consume a qualified rule"; a qualified rule without a block is nothing. -/
inductive RuleAt (any : Bool) : List Prim → Option Rule → List Prim → Nat → Prop
  | at {n : List Nat} {s vs r : List Prim} {b : Option Prim} {o : Nat} : Prelude any true s vs b r o →
      RuleAt any (.tok (.atKeyword n) :: s) (some (.at n vs b)) r o
  | qualified {s vs r : List Prim} {b : Prim} {o : Nat} : (∀ n r', s ≠ .tok (.atKeyword n) :: r') → Prelude any false s vs (some b) r o →
      RuleAt any s (some (.qualified vs b)) r o
  | lost {s vs r : List Prim} {o : Nat} : (∀ n r', s ≠ .tok (.atKeyword n) :: r') → Prelude any false s vs none r o → RuleAt any s none r o

/-- Tokens between the rules of a list: whitespace and, at the top level, `<!--` and `-->`. -/
def Between (top : Bool) (p : Prim) : Prop := p = .tok .whitespace ∨ (top = true ∧ (p = .tok .cdo ∨ p = .tok .cdc))

/-- "Consume a list of rules". -/
inductive Rules (any top : Bool) : List Prim → List Rule → Prop
  | nil : Rules any top [] []
  | skip {p : Prim} {s : List Prim} {rs : List Rule} : Between top p → Rules any top s rs → Rules any top (p :: s) rs
  | rule {p : Prim} {s r : List Prim} {x : Option Rule} {rs : List Rule} {o : Nat} : ¬ Between top p → RuleAt any (p :: s) x r o →
      Rules any top r rs → Rules any top (p :: s) (x.toList ++ rs)

/-- Nothing or whitespace. -/
def Blank (w : List Prim) : Prop := ∀ p ∈ w, p = .tok .whitespace

def WsHead (s : List Prim) : Prop := ∃ r, s = .tok .whitespace :: r

/-- `important` in any case. -/
def Important (n : List Nat) : Prop := n.map Verif.Spec.Infra.lower = Verif.Spec.Percent.codes "important"

/-- The value without `!important` and whether it was there; without whitespace at the end. -/
inductive Trimmed : List Prim → List Prim → Bool → Prop
  | important {v w1 w2 w3 : List Prim} {n : List Nat} : Blank w1 → Blank w2 → Blank w3 → Important n → ¬ WsHead v.reverse →
      Trimmed (v ++ w1 ++ .tok (.delim 0x21) :: w2 ++ .tok (.ident n) :: w3) v true
  | plain {v w : List Prim} : Blank w → ¬ WsHead v.reverse →
      (¬ ∃ u w2 w3 n, Blank w2 ∧ Blank w3 ∧ Important n ∧ v ++ w = u ++ .tok (.delim 0x21) :: w2 ++ .tok (.ident n) :: w3) →
      Trimmed (v ++ w) v false

/-- "Consume a declaration", behind its name; `none` without a colon. The values are those of the list up to its end. -/
inductive Declared (any : Bool) (n : List Nat) : List Prim → Option Decl → Prop
  | decl {w1 w2 s vs v : List Prim} {b : Bool} : Blank w1 → Blank w2 → ¬ WsHead s → Values any s vs → Trimmed vs v b →
      Declared any n (w1 ++ .tok .colon :: w2 ++ s) (some ⟨n, v, b⟩)
  | none {w s : List Prim} : Blank w → ¬ WsHead s → (∀ r, s ≠ .tok .colon :: r) → Declared any n (w ++ s) none

/-- "Parse a declaration". -/
inductive Declaration (any : Bool) : List Prim → Option Decl → Prop
  | decl {w s : List Prim} {n : List Nat} {d : Option Decl} : Blank w → Declared any n s d → Declaration any (w ++ .tok (.ident n) :: s) d
  | none {w s : List Prim} : Blank w → ¬ WsHead s → (∀ n r, s ≠ .tok (.ident n) :: r) → Declaration any (w ++ s) none

/-- Component values up to a semicolon (with `semi`) or the end. -/
inductive Until (any semi : Bool) : List Prim → List Prim → List Prim → Nat → Prop
  | eof : Until any semi [] [] [] 0
  | semi {r : List Prim} : semi = true → Until any semi (.tok .semicolon :: r) [] (.tok .semicolon :: r) 0
  | cons {p x : Prim} {s r r' vs : List Prim} {o o' : Nat} : (semi = true → p ≠ .tok .semicolon) → Value any (p :: s) x r o →
      Until any semi r vs r' o' → Until any semi (p :: s) (x :: vs) r' (o + o')

/-- "Consume a list of declarations". -/
inductive Decls (any : Bool) : List Prim → List (Rule ⊕ Decl) → Prop
  | nil : Decls any [] []
  | skip {p : Prim} {s : List Prim} {ds : List (Rule ⊕ Decl)} : (p = .tok .whitespace ∨ p = .tok .semicolon) →
      Decls any s ds → Decls any (p :: s) ds
  | at {n : List Nat} {s r : List Prim} {x : Rule} {ds : List (Rule ⊕ Decl)} {o : Nat} :
      RuleAt any (.tok (.atKeyword n) :: s) (some x) r o → Decls any r ds → Decls any (.tok (.atKeyword n) :: s) (.inl x :: ds)
  | decl {n : List Nat} {s vs r : List Prim} {d : Option Decl} {ds : List (Rule ⊕ Decl)} {o : Nat} :
      Until any true s vs r o → Declared any n vs d → Decls any r ds → Decls any (.tok (.ident n) :: s) ((d.map Sum.inr).toList ++ ds)
  | junk {p : Prim} {s vs r : List Prim} {ds : List (Rule ⊕ Decl)} {o : Nat} : p ≠ .tok .whitespace → p ≠ .tok .semicolon →
      (∀ n, p ≠ .tok (.atKeyword n)) → (∀ n, p ≠ .tok (.ident n)) → Until any true (p :: s) vs r o → Decls any r ds → Decls any (p :: s) ds

/-- "Parse a rule". -/
inductive OneRule (any : Bool) : List Prim → Option Rule → Prop
  | empty {w : List Prim} : Blank w → OneRule any w none
  | one {w w' s : List Prim} {x : Rule} {o : Nat} : Blank w → s ≠ [] → ¬ WsHead s → RuleAt any s (some x) w' o → Blank w' →
      OneRule any (w ++ s) (some x)
  | lost {w s r : List Prim} {o : Nat} : Blank w → s ≠ [] → ¬ WsHead s → RuleAt any s none r o → OneRule any (w ++ s) none
  | more {w s r : List Prim} {x : Rule} {o : Nat} : Blank w → s ≠ [] → ¬ WsHead s → RuleAt any s (some x) r o → ¬ Blank r →
      OneRule any (w ++ s) none

/-- "Parse a component value". -/
inductive OneValue (any : Bool) : List Prim → Option Prim → Prop
  | empty {w : List Prim} : Blank w → OneValue any w none
  | one {w w' s : List Prim} {x : Prim} {o : Nat} : Blank w → ¬ WsHead s → Value any s x w' o → Blank w' → OneValue any (w ++ s) (some x)
  | more {w s r : List Prim} {x : Prim} {o : Nat} : Blank w → ¬ WsHead s → Value any s x r o → ¬ Blank r → OneValue any (w ++ s) none

/-! ### Where the library fails -/

/-- Nothing but whitespace and at most one `important`. -/
def Meagre (v : List Prim) : Prop := Blank v ∨ ∃ w1 w2 n, v = w1 ++ .tok (.ident n) :: w2 ∧ Blank w1 ∧ Blank w2 ∧ Important n

/-- Behind the name of a declaration: with a colon, and a value that is meagre or ends within a block or function. -/
def Faulty (any : Bool) (s : List Prim) : Prop :=
  ∃ w1 w2 t vs o, s = w1 ++ .tok .colon :: w2 ++ t ∧ Blank w1 ∧ Blank w2 ∧ ¬ WsHead t ∧ Until any false t vs [] o ∧ (0 < o ∨ Meagre vs)

/-- A list of declarations in which one is faulty or ends, as does anything that is skipped, within a block or function. -/
inductive Stuck (any : Bool) : List Prim → Prop
  | skip {p : Prim} {s : List Prim} : (p = .tok .whitespace ∨ p = .tok .semicolon) → Stuck any s → Stuck any (p :: s)
  | at {n : List Nat} {s r : List Prim} {x : Option Rule} {o : Nat} : RuleAt any (.tok (.atKeyword n) :: s) x r o → Stuck any r →
      Stuck any (.tok (.atKeyword n) :: s)
  | decl {n : List Nat} {s vs r : List Prim} {o : Nat} : Until any true s vs r o → 0 < o ∨ Faulty any vs → Stuck any (.tok (.ident n) :: s)
  | declNext {n : List Nat} {s vs r : List Prim} {o : Nat} : Until any true s vs r o → Stuck any r → Stuck any (.tok (.ident n) :: s)
  | junk {p : Prim} {s vs r : List Prim} {o : Nat} : p ≠ .tok .whitespace → p ≠ .tok .semicolon →
      (∀ n, p ≠ .tok (.atKeyword n)) → (∀ n, p ≠ .tok (.ident n)) → Until any true (p :: s) vs r o → 0 < o → Stuck any (p :: s)
  | junkNext {p : Prim} {s vs r : List Prim} {o : Nat} : p ≠ .tok .whitespace → p ≠ .tok .semicolon →
      (∀ n, p ≠ .tok (.atKeyword n)) → (∀ n, p ≠ .tok (.ident n)) → Until any true (p :: s) vs r o → Stuck any r → Stuck any (p :: s)

/-- A list of rules in which one begins with `<!--` or `-->`. -/
inductive Stray (any : Bool) : List Prim → Prop
  | here {p : Prim} {s : List Prim} : (p = .tok .cdo ∨ p = .tok .cdc) → Stray any (p :: s)
  | skip {s : List Prim} : Stray any s → Stray any (.tok .whitespace :: s)
  | next {p : Prim} {s r : List Prim} {x : Option Rule} {o : Nat} : p ≠ .tok .whitespace → RuleAt any (p :: s) x r o → Stray any r →
      Stray any (p :: s)

/-! ### Trees of component values and the tokens they stand for -/

/-- A component value that can be written down: tokens are preserved ones, and no token inside a block or function would end it. -/
inductive Tree (any : Bool) : Prim → Prop
  | tok {t : Token} : Preserved t → Tree any (.tok t)
  | fn {n : List Nat} {vs : List Prim} : (∀ x ∈ vs, Tree any x) → (∀ x ∈ vs, x ≠ .tok .closeParen) → Tree any (.fn n vs)
  | block {t e : Token} {c : Nat} {vs : List Prim} : Pair t c e → (∀ x ∈ vs, Tree any x) →
      (∀ x ∈ vs, ∀ u, x = .tok u → ¬ EndsBlock any e u) → Tree any (.block c vs)

/-- Brackets nest: in the component values of the list no block holds a closing token of another kind. -/
def Matched (s : List Prim) : Prop := ∃ vs, Values false s vs ∧ ∀ x ∈ vs, Tree true x

/-- The opening and closing tokens of a block. -/
def openOf (c : Nat) : Token := if c = 0x7B then .openCurly else if c = 0x5B then .openSquare else .openParen

def closeOf (c : Nat) : Token := if c = 0x7B then .closeCurly else if c = 0x5B then .closeSquare else .closeParen

mutual

/-- The tokens of a component value. -/
def write : Prim → List Token
  | .tok t => [t]
  | .fn n vs => .function n :: writeAll vs ++ [.closeParen]
  | .block c vs => openOf c :: writeAll vs ++ [closeOf c]
  | .other => []

/-- The tokens of a list of component values. -/
def writeAll : List Prim → List Token
  | [] => []
  | x :: xs => write x ++ writeAll xs

end

/-- A token with all closing tokens taken for one. -/
def alike (t : Token) : Token :=
  match t with
  | .closeCurly | .closeSquare => .closeParen
  | t => t

end Verif.Spec.CssParse
