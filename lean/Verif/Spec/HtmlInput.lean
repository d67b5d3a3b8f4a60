import Verif.Model.HtmlInput
import Verif.Spec.Infra
/-
Independent reading of an HTML input stream's callbacks. Only the event type is shared with the model.
-/
namespace Verif.Spec.HtmlInput
open Verif.Model.HtmlInput (Event Err)
open Verif.Spec.Infra

/-- Code points delivered to the tokenizer. -/
def delivered : List Event → List Nat
  | [] => []
  | .emit c :: es => c :: delivered es
  | _ :: es => delivered es

/-- Errors reported. -/
def errors : List Event → List Err
  | [] => []
  | .error e :: es => e :: errors es
  | _ :: es => errors es

/-- The parse error the HTML standard assigns to a code point of the input stream: surrogates, noncharacters, and controls
other than ASCII whitespace and U+0000. -/
inductive Offends : Nat → Err → Prop
  | surrogate (c : Nat) : 0xD800 ≤ c → c ≤ 0xDFFF → Offends c .surrogate
  | nonchar (c : Nat) : IsNonchar c → Offends c .noncharacter
  | control (c : Nat) : (c ≤ 0x1F ∨ (0x7F ≤ c ∧ c ≤ 0x9F)) → ¬ IsWs c → c ≠ 0 → Offends c .control

/-- The list of reports: at most one per code point, in input order. -/
inductive Reports : List Nat → List Err → Prop
  | nil : Reports [] []
  | clean (c s es) : (∀ e, ¬ Offends c e) → Reports s es → Reports (c :: s) es
  | bad (c s e es) : Offends c e → (∀ e', Offends c e' → e' = e) → Reports s es → Reports (c :: s) (e :: es)

end Verif.Spec.HtmlInput
