import Verif.Proof.NamedRefCheck4
/- The rows of the names of character references, part 2. -/
namespace Verif.Proof.NamedRef
open Verif.Spec.NamedRef

set_option maxRecDepth 100000 in
theorem rows3 : rowsOk names3 600 800 = true := by decide +kernel

set_option maxRecDepth 100000 in
theorem rows4 : rowsOk names4 800 1000 = true := by decide +kernel

set_option maxRecDepth 100000 in
theorem rows5 : rowsOk names5 1000 1200 = true := by decide +kernel

end Verif.Proof.NamedRef
