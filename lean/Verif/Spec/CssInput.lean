/-
Independent specification of CSS Syntax 3.3 "filter code points".
-/
namespace Verif.Spec.CssInput

def filter : List Nat → List Nat
  | [] => []
  | 0x0D :: 0x0A :: s => 0x0A :: filter s
  | c :: s => (if c = 0x0D ∨ c = 0x0C then 0x0A else if c = 0 ∨ (0xD800 ≤ c ∧ c ≤ 0xDFFF) then 0xFFFD else c) :: filter s

end Verif.Spec.CssInput
