import Verif.Spec.NamedRef
/-
The texts whose character references the library's table is safe for.
-/
namespace Verif.Spec.NamedRef

/-- What may follow an ampersand: something that does not begin with z or Z, or a whole name with its semicolon. -/
def SafeRef (rest : List Nat) : Prop :=
  (rest.head? ≠ some 0x7A ∧ rest.head? ≠ some 0x5A) ∨ ∃ x ∈ names, x.1.getLast? = some 0x3B ∧ x.1 <+: rest

/-- Every ampersand of the text is followed by such. -/
def SafeText (t : List Nat) : Prop := ∀ pre rest, t = pre ++ 0x26 :: rest → SafeRef rest

end Verif.Spec.NamedRef
