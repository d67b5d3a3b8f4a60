import Verif.Proof.NamedRefCheck
/- The rows of the names of character references, part 1. -/
namespace Verif.Proof.NamedRef
open Verif.Spec.NamedRef

set_option maxRecDepth 100000 in
theorem rows0 : rowsOk names0 0 200 = true := by decide +kernel

set_option maxRecDepth 100000 in
theorem rows1 : rowsOk names1 200 400 = true := by decide +kernel

set_option maxRecDepth 100000 in
theorem rows2 : rowsOk names2 400 600 = true := by decide +kernel

end Verif.Proof.NamedRef
