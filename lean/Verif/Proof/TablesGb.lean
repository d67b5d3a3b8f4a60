import Verif.Proof.Tables
import Verif.Model.Tables.Gb18030
namespace Verif.Proof.Tables
open Verif.Model.Table Verif.Model.Tables

theorem agree_gb : Agree cpGb18030 ptr0Gb18030 ptr1Gb18030 :=
  agree_of (d := 15) (by decide +kernel) (by decide) (by decide)

theorem ascends_gb : Ascends ptr0Gb18030 := ascends_of (d := 15) (by decide +kernel) (by decide)

def bitsGb : Nat := bitsFrom ptr0Gb18030 15 0

theorem covers_gb : Covers cpGb18030 ptr0Gb18030 ptr1Gb18030 :=
  covers_of (d := 15) (b := bitsGb) rfl ascends_gb (by decide) (by decide +kernel) (by decide)

end Verif.Proof.Tables
