import Verif.Proof.NamedRefCheck5
/- The rows of the names of character references, part 3. -/
namespace Verif.Proof.NamedRef
open Verif.Spec.NamedRef

set_option maxRecDepth 100000 in
theorem rows6 : rowsOk names6 1200 1400 = true := by decide +kernel

set_option maxRecDepth 100000 in
theorem rows7 : rowsOk names7 1400 1600 = true := by decide +kernel

set_option maxRecDepth 100000 in
theorem rows8 : rowsOk names8 1600 1800 = true := by decide +kernel

end Verif.Proof.NamedRef
