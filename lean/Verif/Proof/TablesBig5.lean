import Verif.Proof.Tables
import Verif.Model.Tables.Big5
namespace Verif.Proof.Tables
open Verif.Model.Table Verif.Model.Tables

theorem agree_big5 : Agree cpBig5 ptr0Big5 ptr1Big5 := agree_of (d := 14) (by decide +kernel) (by decide) (by decide)

end Verif.Proof.Tables
