import Verif.Proof.NamedRefCheck6
/- The rows of the names of character references, part 4. -/
namespace Verif.Proof.NamedRef
open Verif.Spec.NamedRef

set_option maxRecDepth 100000 in
theorem rows9 : rowsOk names9 1800 2000 = true := by decide +kernel

set_option maxRecDepth 100000 in
theorem rows10 : rowsOk names10 2000 2200 = true := by decide +kernel

set_option maxRecDepth 100000 in
theorem rows11 : rowsOk names11 2200 2231 = true := by decide +kernel

theorem rows : rowsOk names 0 2231 = true :=
  rowsOk_append (rowsOk_append (rowsOk_append (rowsOk_append (rowsOk_append (rowsOk_append (rowsOk_append (rowsOk_append (rowsOk_append (rowsOk_append (rowsOk_append rows0 rows1) rows2) rows3) rows4) rows5) rows6) rows7) rows8) rows9) rows10) rows11

end Verif.Proof.NamedRef
