import Verif.Proof.Tables
import Verif.Model.Tables.Single
namespace Verif.Proof.Tables
open Verif.Model.Table Verif.Model.Tables

theorem agreeIbm866 : Agree cpIbm866 ptr0Ibm866 ptr1Ibm866 := agree_of (d := 7) (by decide +kernel) (by decide) (by decide)
theorem invertsIbm866 : Inverts cpIbm866 ptr0Ibm866 ptr1Ibm866 := inverts_of (d := 7) (by decide +kernel) (by decide) (by decide)

theorem agreeIso88592 : Agree cpIso88592 ptr0Iso88592 ptr1Iso88592 := agree_of (d := 7) (by decide +kernel) (by decide) (by decide)
theorem invertsIso88592 : Inverts cpIso88592 ptr0Iso88592 ptr1Iso88592 := inverts_of (d := 7) (by decide +kernel) (by decide) (by decide)

theorem agreeIso88593 : Agree cpIso88593 ptr0Iso88593 ptr1Iso88593 := agree_of (d := 7) (by decide +kernel) (by decide) (by decide)
theorem invertsIso88593 : Inverts cpIso88593 ptr0Iso88593 ptr1Iso88593 := inverts_of (d := 7) (by decide +kernel) (by decide) (by decide)

theorem agreeIso88594 : Agree cpIso88594 ptr0Iso88594 ptr1Iso88594 := agree_of (d := 7) (by decide +kernel) (by decide) (by decide)
theorem invertsIso88594 : Inverts cpIso88594 ptr0Iso88594 ptr1Iso88594 := inverts_of (d := 7) (by decide +kernel) (by decide) (by decide)

theorem agreeIso88595 : Agree cpIso88595 ptr0Iso88595 ptr1Iso88595 := agree_of (d := 7) (by decide +kernel) (by decide) (by decide)
theorem invertsIso88595 : Inverts cpIso88595 ptr0Iso88595 ptr1Iso88595 := inverts_of (d := 7) (by decide +kernel) (by decide) (by decide)

theorem agreeIso88596 : Agree cpIso88596 ptr0Iso88596 ptr1Iso88596 := agree_of (d := 7) (by decide +kernel) (by decide) (by decide)
theorem invertsIso88596 : Inverts cpIso88596 ptr0Iso88596 ptr1Iso88596 := inverts_of (d := 7) (by decide +kernel) (by decide) (by decide)

theorem agreeIso88597 : Agree cpIso88597 ptr0Iso88597 ptr1Iso88597 := agree_of (d := 7) (by decide +kernel) (by decide) (by decide)
theorem invertsIso88597 : Inverts cpIso88597 ptr0Iso88597 ptr1Iso88597 := inverts_of (d := 7) (by decide +kernel) (by decide) (by decide)

theorem agreeIso88598 : Agree cpIso88598 ptr0Iso88598 ptr1Iso88598 := agree_of (d := 7) (by decide +kernel) (by decide) (by decide)
theorem invertsIso88598 : Inverts cpIso88598 ptr0Iso88598 ptr1Iso88598 := inverts_of (d := 7) (by decide +kernel) (by decide) (by decide)

theorem agreeIso885910 : Agree cpIso885910 ptr0Iso885910 ptr1Iso885910 := agree_of (d := 7) (by decide +kernel) (by decide) (by decide)
theorem invertsIso885910 : Inverts cpIso885910 ptr0Iso885910 ptr1Iso885910 := inverts_of (d := 7) (by decide +kernel) (by decide) (by decide)

theorem agreeIso885913 : Agree cpIso885913 ptr0Iso885913 ptr1Iso885913 := agree_of (d := 7) (by decide +kernel) (by decide) (by decide)
theorem invertsIso885913 : Inverts cpIso885913 ptr0Iso885913 ptr1Iso885913 := inverts_of (d := 7) (by decide +kernel) (by decide) (by decide)

theorem agreeIso885914 : Agree cpIso885914 ptr0Iso885914 ptr1Iso885914 := agree_of (d := 7) (by decide +kernel) (by decide) (by decide)
theorem invertsIso885914 : Inverts cpIso885914 ptr0Iso885914 ptr1Iso885914 := inverts_of (d := 7) (by decide +kernel) (by decide) (by decide)

theorem agreeIso885915 : Agree cpIso885915 ptr0Iso885915 ptr1Iso885915 := agree_of (d := 7) (by decide +kernel) (by decide) (by decide)
theorem invertsIso885915 : Inverts cpIso885915 ptr0Iso885915 ptr1Iso885915 := inverts_of (d := 7) (by decide +kernel) (by decide) (by decide)

theorem agreeIso885916 : Agree cpIso885916 ptr0Iso885916 ptr1Iso885916 := agree_of (d := 7) (by decide +kernel) (by decide) (by decide)
theorem invertsIso885916 : Inverts cpIso885916 ptr0Iso885916 ptr1Iso885916 := inverts_of (d := 7) (by decide +kernel) (by decide) (by decide)

theorem agreeKoi8R : Agree cpKoi8R ptr0Koi8R ptr1Koi8R := agree_of (d := 7) (by decide +kernel) (by decide) (by decide)
theorem invertsKoi8R : Inverts cpKoi8R ptr0Koi8R ptr1Koi8R := inverts_of (d := 7) (by decide +kernel) (by decide) (by decide)

theorem agreeKoi8U : Agree cpKoi8U ptr0Koi8U ptr1Koi8U := agree_of (d := 7) (by decide +kernel) (by decide) (by decide)
theorem invertsKoi8U : Inverts cpKoi8U ptr0Koi8U ptr1Koi8U := inverts_of (d := 7) (by decide +kernel) (by decide) (by decide)

theorem agreeMacintosh : Agree cpMacintosh ptr0Macintosh ptr1Macintosh := agree_of (d := 7) (by decide +kernel) (by decide) (by decide)
theorem invertsMacintosh : Inverts cpMacintosh ptr0Macintosh ptr1Macintosh := inverts_of (d := 7) (by decide +kernel) (by decide) (by decide)

theorem agreeWindows874 : Agree cpWindows874 ptr0Windows874 ptr1Windows874 := agree_of (d := 7) (by decide +kernel) (by decide) (by decide)
theorem invertsWindows874 : Inverts cpWindows874 ptr0Windows874 ptr1Windows874 := inverts_of (d := 7) (by decide +kernel) (by decide) (by decide)

theorem agreeWindows1250 : Agree cpWindows1250 ptr0Windows1250 ptr1Windows1250 := agree_of (d := 7) (by decide +kernel) (by decide) (by decide)
theorem invertsWindows1250 : Inverts cpWindows1250 ptr0Windows1250 ptr1Windows1250 := inverts_of (d := 7) (by decide +kernel) (by decide) (by decide)

theorem agreeWindows1251 : Agree cpWindows1251 ptr0Windows1251 ptr1Windows1251 := agree_of (d := 7) (by decide +kernel) (by decide) (by decide)
theorem invertsWindows1251 : Inverts cpWindows1251 ptr0Windows1251 ptr1Windows1251 := inverts_of (d := 7) (by decide +kernel) (by decide) (by decide)

theorem agreeWindows1252 : Agree cpWindows1252 ptr0Windows1252 ptr1Windows1252 := agree_of (d := 7) (by decide +kernel) (by decide) (by decide)
theorem invertsWindows1252 : Inverts cpWindows1252 ptr0Windows1252 ptr1Windows1252 := inverts_of (d := 7) (by decide +kernel) (by decide) (by decide)

theorem agreeWindows1253 : Agree cpWindows1253 ptr0Windows1253 ptr1Windows1253 := agree_of (d := 7) (by decide +kernel) (by decide) (by decide)
theorem invertsWindows1253 : Inverts cpWindows1253 ptr0Windows1253 ptr1Windows1253 := inverts_of (d := 7) (by decide +kernel) (by decide) (by decide)

theorem agreeWindows1254 : Agree cpWindows1254 ptr0Windows1254 ptr1Windows1254 := agree_of (d := 7) (by decide +kernel) (by decide) (by decide)
theorem invertsWindows1254 : Inverts cpWindows1254 ptr0Windows1254 ptr1Windows1254 := inverts_of (d := 7) (by decide +kernel) (by decide) (by decide)

theorem agreeWindows1255 : Agree cpWindows1255 ptr0Windows1255 ptr1Windows1255 := agree_of (d := 7) (by decide +kernel) (by decide) (by decide)
theorem invertsWindows1255 : Inverts cpWindows1255 ptr0Windows1255 ptr1Windows1255 := inverts_of (d := 7) (by decide +kernel) (by decide) (by decide)

theorem agreeWindows1256 : Agree cpWindows1256 ptr0Windows1256 ptr1Windows1256 := agree_of (d := 7) (by decide +kernel) (by decide) (by decide)
theorem invertsWindows1256 : Inverts cpWindows1256 ptr0Windows1256 ptr1Windows1256 := inverts_of (d := 7) (by decide +kernel) (by decide) (by decide)

theorem agreeWindows1257 : Agree cpWindows1257 ptr0Windows1257 ptr1Windows1257 := agree_of (d := 7) (by decide +kernel) (by decide) (by decide)
theorem invertsWindows1257 : Inverts cpWindows1257 ptr0Windows1257 ptr1Windows1257 := inverts_of (d := 7) (by decide +kernel) (by decide) (by decide)

theorem agreeWindows1258 : Agree cpWindows1258 ptr0Windows1258 ptr1Windows1258 := agree_of (d := 7) (by decide +kernel) (by decide) (by decide)
theorem invertsWindows1258 : Inverts cpWindows1258 ptr0Windows1258 ptr1Windows1258 := inverts_of (d := 7) (by decide +kernel) (by decide) (by decide)

theorem agreeXMacCyrillic : Agree cpXMacCyrillic ptr0XMacCyrillic ptr1XMacCyrillic := agree_of (d := 7) (by decide +kernel) (by decide) (by decide)
theorem invertsXMacCyrillic : Inverts cpXMacCyrillic ptr0XMacCyrillic ptr1XMacCyrillic := inverts_of (d := 7) (by decide +kernel) (by decide) (by decide)

end Verif.Proof.Tables
