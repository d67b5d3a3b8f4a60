import Verif.Model.HtmlTree
/- Watching the tokens on their way from the tokenizer to the tree construction. -/
namespace Verif.Spec.HtmlWatch
open Verif.Model.HtmlTok
variable {σ : Type}

/-- The stage with a record of the tokens, along with the state in which each of them arrives. -/
def watch (S : Sink σ) : Sink (σ × List (σ × Tok)) := ⟨fun s t => (S.emit s.1 t, s.2 ++ [(s.1, t)]), fun s => S.switch s.1, fun s => S.node s.1⟩

/-- The tokens that reach the tree construction while a text is parsed. -/
def tokens (tbl : List Nat → Bool) (find : Find) (f : Nat) (l : List Nat) : Option (List Tok) :=
  (feed (watch (Model.HtmlTree.sink tbl)) find f false l (init (.ok Model.HtmlTree.init, []))).map (·.2.sink.2.map (·.2))

/-- The tokens if the end of the text is announced, too. -/
def tokensEof (tbl : List Nat → Bool) (find : Find) (f : Nat) (l : List Nat) : Option (List Tok) :=
  (tokenize (watch (Model.HtmlTree.sink tbl)) find f (.ok Model.HtmlTree.init, []) l).map (·.sink.2.map (·.2))

/-- The names of the start tags among tokens. -/
def starts : List Tok → List (List Nat)
  | [] => []
  | .startTag n _ _ :: l => n :: starts l
  | _ :: l => starts l

end Verif.Spec.HtmlWatch
