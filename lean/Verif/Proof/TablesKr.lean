import Verif.Proof.Tables
import Verif.Model.Tables.EucKr
namespace Verif.Proof.Tables
open Verif.Model.Table Verif.Model.Tables

theorem agree_kr : Agree cpEucKr ptr0EucKr ptr1EucKr := agree_of (d := 15) (by decide +kernel) (by decide) (by decide)

theorem ascends_kr : Ascends ptr0EucKr := ascends_of (d := 15) (by decide +kernel) (by decide)

def bitsKr : Nat := bitsFrom ptr0EucKr 15 0

theorem covers_kr : Covers cpEucKr ptr0EucKr ptr1EucKr :=
  covers_of (d := 15) (b := bitsKr) rfl ascends_kr (by decide) (by decide +kernel) (by decide)

end Verif.Proof.Tables
