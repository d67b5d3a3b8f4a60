import Verif.Model.Table
/-
Index tables of the single-byte encodings.
Transcribed by a script; see Verif.Model.Table for the packing.
-/
namespace Verif.Model.Tables
open Verif.Model.Table

set_option maxRecDepth 100000

/-- Rows of `index_code_point_ibm866`. -/
def cpIbm866Data : Nat := pack 480 [
  0x00427004260042500424004230042200421004200041f0041e0041d0041c0041b0041a00419004180041700416004150041400413004120041100410,
  0x0043f0043e0043d0043c0043b0043a004390043800437004360043500434004330043200431004300042f0042e0042d0042c0042b0042a0042900428,
  0x0255f0255e0253c025000251c0252c0253402514025100255b0255c0255d025570255102563025550255602562025610252402502025930259202591,
  0x02580025900258c02584025880250c025180256a0256b02553025520255802559025650256402568025670256c02550025600256602569025540255a,
  0x0045e0040e0045700407004540040400451004010044f0044e0044d0044c0044b0044a00449004480044700446004450044400443004420044100440,
  0x000a0025a0000a4021160221a000b702219000b0]

/-- `index_code_point_ibm866` (lib/whatwg/encoding/indexes_code_point.cpp:10), 128 entries. -/
def cpIbm866 : Table := ⟨20, 128, cpIbm866Data⟩

/-- Rows of `index_pointer_ibm866_0`. -/
def ptr0Ibm866Data : Nat := pack 480 [
  0x0041f0041e0041d0041c0041b0041a004190041800417004160041500414004130041200411004100040e004070040400401000b7000b0000a4000a0,
  0x00437004360043500434004330043200431004300042f0042e0042d0042c0042b0042a00429004280042700426004250042400423004220042100420,
  0x0044f0044e0044d0044c0044b0044a004490044800447004460044500444004430044200441004400043f0043e0043d0043c0043b0043a0043900438,
  0x0255502554025530255202551025500253c025340252c025240251c0251802514025100250c02502025000221a02219021160045e004570045400451,
  0x025800256c0256b0256a025690256802567025660256502564025630256202561025600255f0255e0255d0255c0255b0255a02559025580255702556,
  0x025a0025930259202591025900258c0258802584]

/-- `index_pointer_ibm866_0` (lib/whatwg/encoding/indexes_pointer.cpp:20), 128 entries. -/
def ptr0Ibm866 : Table := ⟨20, 128, ptr0Ibm866Data⟩

/-- Rows of `index_pointer_ibm866_1`. -/
def ptr1Ibm866Data : Nat := pack 480 [
  0x001500140013001200110010000f000e000d000c000b000a00090008000700060005000400030002000100000076007400720070007a0078007d007f,
  0x0063006200610060002f002e002d002c002b002a0029002800270026002500240023002200210020001f001e001d001c001b001a0019001800170016,
  0x0045004100420034004300590040003f005a00330044007b0079007c0077007500730071006f006e006d006c006b006a006900680067006600650064,
  0x005f004e00570058004a0050004f004b00520051003900360035004c00470046003c003d003e004800530054003b00370038004900560055003a004d,
  0x007e003200310030005e005d005b005c]

/-- `index_pointer_ibm866_1` (lib/whatwg/encoding/indexes_pointer.cpp:21), 128 entries. -/
def ptr1Ibm866 : Table := ⟨16, 128, ptr1Ibm866Data⟩

/-- Rows of `index_code_point_iso_8859_2`. -/
def cpIso88592Data : Nat := pack 480 [
  0x00097000960009500094000930009200091000900008f0008e0008d0008c0008b0008a00089000880008700086000850008400083000820008100080,
  0x0017b0017d000ad00179001640015e00160000a8000a70015a0013d000a400141002d800104000a00009f0009e0009d0009c0009b0009a0009900098,
  0x000c70010600139000c400102000c2000c1001540017c0017e002dd0017a001650015f00161000b8002c70015b0013e000b400142002db00105000b0,
  0x000df00162000dd000dc00170000da0016e00158000d7000d600150000d4000d30014700143001100010e000ce000cd0011a000cb00118000c90010c,
  0x000f7000f600151000f4000f30014800144001110010f000ee000ed0011b000eb00119000e90010d000e7001070013a000e400103000e2000e100155,
  0x002d900163000fd000fc00171000fa0016f00159]

/-- `index_code_point_iso_8859_2` (lib/whatwg/encoding/indexes_code_point.cpp:12), 128 entries. -/
def cpIso88592 : Table := ⟨20, 128, cpIso88592Data⟩

/-- Rows of `index_pointer_iso_8859_2_0`. -/
def ptr0Iso88592Data : Nat := pack 480 [
  0x00097000960009500094000930009200091000900008f0008e0008d0008c0008b0008a00089000880008700086000850008400083000820008100080,
  0x000ce000cd000cb000c9000c7000c4000c2000c1000b8000b4000b0000ad000a8000a7000a4000a00009f0009e0009d0009c0009b0009a0009900098,
  0x00102000fd000fc000fa000f7000f6000f4000f3000ee000ed000eb000e9000e7000e4000e2000e1000df000dd000dc000da000d7000d6000d4000d3,
  0x00147001440014300142001410013e0013d0013a001390011b0011a001190011800111001100010f0010e0010d0010c0010700106001050010400103,
  0x0017b0017a0017900171001700016f0016e0016500164001630016200161001600015f0015e0015b0015a00159001580015500154001510015000148,
  0x002dd002db002d9002d8002c70017e0017d0017c]

/-- `index_pointer_iso_8859_2_0` (lib/whatwg/encoding/indexes_pointer.cpp:26), 128 entries. -/
def ptr0Iso88592 : Table := ⟨20, 128, ptr0Iso88592Data⟩

/-- Rows of `index_pointer_iso_8859_2_1`. -/
def ptr1Iso88592Data : Nat := pack 480 [
  0x001d001c001b001a0019001800170016001500140013001200110010000f000e000d000c000b000a0009000800070006000500040003000200010000,
  0x0067006400620061005f005d005c005a0057005600540053004e004d004b00490047004400420041003800340030002d0028002700240020001f001e,
  0x002500650045006c004c006a004a00700050006f004f00680048006600460031002100630043007d007c007a0077007600740073006e006d006b0069,
  0x002f003c002c007b005b00790059003b002b007e005e00390029003a002a003600260078005800600040007500550072005200710051003300230035,
  0x003d0032007f00220037003e002e003f]

/-- `index_pointer_iso_8859_2_1` (lib/whatwg/encoding/indexes_pointer.cpp:27), 128 entries. -/
def ptr1Iso88592 : Table := ⟨16, 128, ptr1Iso88592Data⟩

/-- Rows of `index_code_point_iso_8859_3`. -/
def cpIso88593Data : Nat := pack 480 [
  0x00097000960009500094000930009200091000900008f0008e0008d0008c0008b0008a00089000880008700086000850008400083000820008100080,
  0x0017bfffff000ad001340011e0015e00130000a8000a700124fffff000a4000a3002d800126000a00009f0009e0009d0009c0009b0009a0009900098,
  0x000c7001080010a000c4fffff000c2000c1000c00017cfffff000bd001350011f0015f00131000b8000b700125000b5000b4000b3000b200127000b0,
  0x000df0015c0016c000dc000db000da000d90011c000d7000d600120000d4000d3000d2000d1fffff000cf000ce000cd000cc000cb000ca000c9000c8,
  0x000f7000f600121000f4000f3000f2000f1fffff000ef000ee000ed000ec000eb000ea000e9000e8000e7001090010b000e4fffff000e2000e1000e0,
  0x002d90015d0016d000fc000fb000fa000f90011d]

/-- `index_code_point_iso_8859_3` (lib/whatwg/encoding/indexes_code_point.cpp:13), 128 entries. -/
def cpIso88593 : Table := ⟨20, 128, cpIso88593Data⟩

/-- Rows of `index_pointer_iso_8859_3_0`. -/
def ptr0Iso88593Data : Nat := pack 480 [
  0x00097000960009500094000930009200091000900008f0008e0008d0008c0008b0008a00089000880008700086000850008400083000820008100080,
  0x000c1000c0000bd000b8000b7000b5000b4000b3000b2000b0000ad000a8000a7000a4000a3000a00009f0009e0009d0009c0009b0009a0009900098,
  0x000e1000e0000df000dc000db000da000d9000d7000d6000d4000d3000d2000d1000cf000ce000cd000cc000cb000ca000c9000c8000c7000c4000c2,
  0x0010a0010900108000fc000fb000fa000f9000f7000f6000f4000f3000f2000f1000ef000ee000ed000ec000eb000ea000e9000e8000e7000e4000e2,
  0x002d80017c0017b0016d0016c0015f0015e0015d0015c001350013400131001300012700126001250012400121001200011f0011e0011d0011c0010b,
  0x002d9]

/-- `index_pointer_iso_8859_3_0` (lib/whatwg/encoding/indexes_pointer.cpp:29), 121 entries. -/
def ptr0Iso88593 : Table := ⟨20, 121, ptr0Iso88593Data⟩

/-- Rows of `index_pointer_iso_8859_3_1`. -/
def ptr1Iso88593Data : Nat := pack 480 [
  0x001d001c001b001a0019001800170016001500140013001200110010000f000e000d000c000b000a0009000800070006000500040003000200010000,
  0x0051004f004e004d004c004b004a0049004800470044004200410040003d0038003700350034003300320030002d00280027002400230020001f001e,
  0x0079007700760074007300720071006f006e006d006c006b006a0069006800670064006200610060005f005c005b005a005900570056005400530052,
  0x0022003f002f007d005d003a002a007e005e003c002c00390029003100210036002600750055003b002b007800580065004500660046007c007b007a,
  0x007f]

/-- `index_pointer_iso_8859_3_1` (lib/whatwg/encoding/indexes_pointer.cpp:30), 121 entries. -/
def ptr1Iso88593 : Table := ⟨16, 121, ptr1Iso88593Data⟩

/-- Rows of `index_code_point_iso_8859_4`. -/
def cpIso88594Data : Nat := pack 480 [
  0x00097000960009500094000930009200091000900008f0008e0008d0008c0008b0008a00089000880008700086000850008400083000820008100080,
  0x000af0017d000ad00166001220011200160000a8000a70013b00128000a4001560013800104000a00009f0009e0009d0009c0009b0009a0009900098,
  0x0012e000c6000c5000c4000c3000c2000c1001000014b0017e0014a00167001230011300161000b8002c70013c00129000b400157002db00105000b0,
  0x000df0016a00168000dc000db000da00172000d8000d7000d6000d5000d4001360014c00145001100012a000ce000cd00116000cb00118000c90010c,
  0x000f7000f6000f5000f4001370014d00146001110012b000ee000ed00117000eb00119000e90010d0012f000e6000e5000e4000e3000e2000e100101,
  0x002d90016b00169000fc000fb000fa00173000f8]

/-- `index_code_point_iso_8859_4` (lib/whatwg/encoding/indexes_code_point.cpp:14), 128 entries. -/
def cpIso88594 : Table := ⟨20, 128, cpIso88594Data⟩

/-- Rows of `index_pointer_iso_8859_4_0`. -/
def ptr0Iso88594Data : Nat := pack 480 [
  0x00097000960009500094000930009200091000900008f0008e0008d0008c0008b0008a00089000880008700086000850008400083000820008100080,
  0x000c9000c6000c5000c4000c3000c2000c1000b8000b4000b0000af000ad000a8000a7000a4000a00009f0009e0009d0009c0009b0009a0009900098,
  0x000f5000f4000ee000ed000eb000e9000e6000e5000e4000e3000e2000e1000df000dc000db000da000d8000d7000d6000d5000d4000ce000cd000cb,
  0x0012900128001230012200119001180011700116001130011200111001100010d0010c00105001040010100100000fc000fb000fa000f8000f7000f6,
  0x0016a00169001680016700166001610016000157001560014d0014c0014b0014a00146001450013c0013b0013800137001360012f0012e0012b0012a,
  0x002db002d9002c70017e0017d00173001720016b]

/-- `index_pointer_iso_8859_4_0` (lib/whatwg/encoding/indexes_pointer.cpp:32), 128 entries. -/
def ptr0Iso88594 : Table := ⟨20, 128, ptr0Iso88594Data⟩

/-- Rows of `index_pointer_iso_8859_4_1`. -/
def ptr1Iso88594Data : Nat := pack 480 [
  0x001d001c001b001a0019001800170016001500140013001200110010000f000e000d000c000b000a0009000800070006000500040003000200010000,
  0x005f005c005b005a00580057005600550054004e004d004b0049004600450044004300420041003800340030002f002d0028002700240020001f001e,
  0x006c004c003a002a00700050006800480031002100600040007c007b007a00780077007600750074006e006d006b0069006600650064006300620061,
  0x005e007d005d003c002c003900290033002300720052003f003d007100510036002600220073005300670047006f004f00350025003b002b006a004a,
  0x0032007f0037003e002e00790059007e]

/-- `index_pointer_iso_8859_4_1` (lib/whatwg/encoding/indexes_pointer.cpp:33), 128 entries. -/
def ptr1Iso88594 : Table := ⟨16, 128, ptr1Iso88594Data⟩

/-- Rows of `index_code_point_iso_8859_5`. -/
def cpIso88595Data : Nat := pack 480 [
  0x00097000960009500094000930009200091000900008f0008e0008d0008c0008b0008a00089000880008700086000850008400083000820008100080,
  0x0040f0040e000ad0040c0040b0040a004090040800407004060040500404004030040200401000a00009f0009e0009d0009c0009b0009a0009900098,
  0x00427004260042500424004230042200421004200041f0041e0041d0041c0041b0041a00419004180041700416004150041400413004120041100410,
  0x0043f0043e0043d0043c0043b0043a004390043800437004360043500434004330043200431004300042f0042e0042d0042c0042b0042a0042900428,
  0x00457004560045500454004530045200451021160044f0044e0044d0044c0044b0044a00449004480044700446004450044400443004420044100440,
  0x0045f0045e000a70045c0045b0045a0045900458]

/-- `index_code_point_iso_8859_5` (lib/whatwg/encoding/indexes_code_point.cpp:15), 128 entries. -/
def cpIso88595 : Table := ⟨20, 128, cpIso88595Data⟩

/-- Rows of `index_pointer_iso_8859_5_0`. -/
def ptr0Iso88595Data : Nat := pack 480 [
  0x00097000960009500094000930009200091000900008f0008e0008d0008c0008b0008a00089000880008700086000850008400083000820008100080,
  0x0040e0040c0040b0040a004090040800407004060040500404004030040200401000ad000a7000a00009f0009e0009d0009c0009b0009a0009900098,
  0x004260042500424004230042200421004200041f0041e0041d0041c0041b0041a004190041800417004160041500414004130041200411004100040f,
  0x0043e0043d0043c0043b0043a004390043800437004360043500434004330043200431004300042f0042e0042d0042c0042b0042a004290042800427,
  0x004570045600455004540045300452004510044f0044e0044d0044c0044b0044a004490044800447004460044500444004430044200441004400043f,
  0x021160045f0045e0045c0045b0045a0045900458]

/-- `index_pointer_iso_8859_5_0` (lib/whatwg/encoding/indexes_pointer.cpp:35), 128 entries. -/
def ptr0Iso88595 : Table := ⟨20, 128, ptr0Iso88595Data⟩

/-- Rows of `index_pointer_iso_8859_5_1`. -/
def ptr1Iso88595Data : Nat := pack 480 [
  0x001d001c001b001a0019001800170016001500140013001200110010000f000e000d000c000b000a0009000800070006000500040003000200010000,
  0x003a0039003800370036003500340033003200310030002f002e002c002b002a002900280027002600250024002300220021002d007d0020001f001e,
  0x005800570056005500540053005200510050004f004e004d004c004b004a0049004800470046004500440043004200410040003f003e003d003c003b,
  0x0077007600750074007300720071006f006e006d006c006b006a0069006800670066006500640063006200610060005f005e005d005c005b005a0059,
  0x0070007f007e007c007b007a00790078]

/-- `index_pointer_iso_8859_5_1` (lib/whatwg/encoding/indexes_pointer.cpp:36), 128 entries. -/
def ptr1Iso88595 : Table := ⟨16, 128, ptr1Iso88595Data⟩

/-- Rows of `index_code_point_iso_8859_6`. -/
def cpIso88596Data : Nat := pack 480 [
  0x00097000960009500094000930009200091000900008f0008e0008d0008c0008b0008a00089000880008700086000850008400083000820008100080,
  0xffffffffff000ad0060cfffffffffffffffffffffffffffffffffff000a4fffffffffffffff000a00009f0009e0009d0009c0009b0009a0009900098,
  0x00627006260062500624006230062200621fffff0061ffffffffffffffff0061bfffffffffffffffffffffffffffffffffffffffffffffffffffffff,
  0xfffffffffffffffffffffffff0063a006390063800637006360063500634006330063200631006300062f0062e0062d0062c0062b0062a0062900628,
  0xfffffffffffffffffffffffff0065200651006500064f0064e0064d0064c0064b0064a00649006480064700646006450064400643006420064100640,
  0xffffffffffffffffffffffffffffffffffffffff]

/-- `index_code_point_iso_8859_6` (lib/whatwg/encoding/indexes_code_point.cpp:16), 128 entries. -/
def cpIso88596 : Table := ⟨20, 128, cpIso88596Data⟩

/-- Rows of `index_pointer_iso_8859_6_0`. -/
def ptr0Iso88596Data : Nat := pack 480 [
  0x00097000960009500094000930009200091000900008f0008e0008d0008c0008b0008a00089000880008700086000850008400083000820008100080,
  0x0062a0062900628006270062600625006240062300622006210061f0061b0060c000ad000a4000a00009f0009e0009d0009c0009b0009a0009900098,
  0x00647006460064500644006430064200641006400063a006390063800637006360063500634006330063200631006300062f0062e0062d0062c0062b,
  0x0065200651006500064f0064e0064d0064c0064b0064a0064900648]

/-- `index_pointer_iso_8859_6_0` (lib/whatwg/encoding/indexes_pointer.cpp:38), 83 entries. -/
def ptr0Iso88596 : Table := ⟨20, 83, ptr0Iso88596Data⟩

/-- Rows of `index_pointer_iso_8859_6_1`. -/
def ptr1Iso88596Data : Nat := pack 480 [
  0x001d001c001b001a0019001800170016001500140013001200110010000f000e000d000c000b000a0009000800070006000500040003000200010000,
  0x0056005500540053005200510050004f004e004d004c004b004a004900480047004600450044004300420041003f003b002c002d00240020001f001e,
  0x007200710070006f006e006d006c006b006a0069006800670066006500640063006200610060005a005900580057]

/-- `index_pointer_iso_8859_6_1` (lib/whatwg/encoding/indexes_pointer.cpp:39), 83 entries. -/
def ptr1Iso88596 : Table := ⟨16, 83, ptr1Iso88596Data⟩

/-- Rows of `index_code_point_iso_8859_7`. -/
def cpIso88597Data : Nat := pack 480 [
  0x00097000960009500094000930009200091000900008f0008e0008d0008c0008b0008a00089000880008700086000850008400083000820008100080,
  0x02015fffff000ad000ac000ab0037a000a9000a8000a7000a6020af020ac000a30201902018000a00009f0009e0009d0009c0009b0009a0009900098,
  0x00397003960039500394003930039200391003900038f0038e000bd0038c000bb0038a0038900388000b7003860038500384000b3000b2000b1000b0,
  0x003af003ae003ad003ac003ab003aa003a9003a8003a7003a6003a5003a4003a3fffff003a1003a00039f0039e0039d0039c0039b0039a0039900398,
  0x003c7003c6003c5003c4003c3003c2003c1003c0003bf003be003bd003bc003bb003ba003b9003b8003b7003b6003b5003b4003b3003b2003b1003b0,
  0xfffff003ce003cd003cc003cb003ca003c9003c8]

/-- `index_code_point_iso_8859_7` (lib/whatwg/encoding/indexes_code_point.cpp:17), 128 entries. -/
def cpIso88597 : Table := ⟨20, 128, cpIso88597Data⟩

/-- Rows of `index_pointer_iso_8859_7_0`. -/
def ptr0Iso88597Data : Nat := pack 480 [
  0x00097000960009500094000930009200091000900008f0008e0008d0008c0008b0008a00089000880008700086000850008400083000820008100080,
  0x000bd000bb000b7000b3000b2000b1000b0000ad000ac000ab000a9000a8000a7000a6000a3000a00009f0009e0009d0009c0009b0009a0009900098,
  0x0039d0039c0039b0039a003990039800397003960039500394003930039200391003900038f0038e0038c0038a00389003880038600385003840037a,
  0x003b6003b5003b4003b3003b2003b1003b0003af003ae003ad003ac003ab003aa003a9003a8003a7003a6003a5003a4003a3003a1003a00039f0039e,
  0x003ce003cd003cc003cb003ca003c9003c8003c7003c6003c5003c4003c3003c2003c1003c0003bf003be003bd003bc003bb003ba003b9003b8003b7,
  0x020af020ac020190201802015]

/-- `index_pointer_iso_8859_7_0` (lib/whatwg/encoding/indexes_pointer.cpp:41), 125 entries. -/
def ptr0Iso88597 : Table := ⟨20, 125, ptr0Iso88597Data⟩

/-- Rows of `index_pointer_iso_8859_7_1`. -/
def ptr1Iso88597Data : Nat := pack 480 [
  0x001d001c001b001a0019001800170016001500140013001200110010000f000e000d000c000b000a0009000800070006000500040003000200010000,
  0x00410040003f003e003c003a00390038003600350034002a003d003b00370033003200310030002d002c002b002900280027002600230020001f001e,
  0x0060005f005e005d005c005b005a005900580057005600550054005300510050004f004e004d004c004b004a00490048004700460045004400430042,
  0x007e007d007c007b007a0079007800770076007500740073007200710070006f006e006d006c006b006a006900680067006600650064006300620061,
  0x0025002400220021002f]

/-- `index_pointer_iso_8859_7_1` (lib/whatwg/encoding/indexes_pointer.cpp:42), 125 entries. -/
def ptr1Iso88597 : Table := ⟨16, 125, ptr1Iso88597Data⟩

/-- Rows of `index_code_point_iso_8859_8`. -/
def cpIso88598Data : Nat := pack 480 [
  0x00097000960009500094000930009200091000900008f0008e0008d0008c0008b0008a00089000880008700086000850008400083000820008100080,
  0x000af000ae000ad000ac000ab000d7000a9000a8000a7000a6000a5000a4000a3000a2fffff000a00009f0009e0009d0009c0009b0009a0009900098,
  0xfffffffffffffffffffffffffffffffffffffffffffff000be000bd000bc000bb000f7000b9000b8000b7000b6000b5000b4000b3000b2000b1000b0,
  0x02017fffffffffffffffffffffffffffffffffffffffffffffffffffffffffffffffffffffffffffffffffffffffffffffffffffffffffffffffffff,
  0x005e7005e6005e5005e4005e3005e2005e1005e0005df005de005dd005dc005db005da005d9005d8005d7005d6005d5005d4005d3005d2005d1005d0,
  0xfffff0200f0200effffffffff005ea005e9005e8]

/-- `index_code_point_iso_8859_8` (lib/whatwg/encoding/indexes_code_point.cpp:18), 128 entries. -/
def cpIso88598 : Table := ⟨20, 128, cpIso88598Data⟩

/-- Rows of `index_pointer_iso_8859_8_0`. -/
def ptr0Iso88598Data : Nat := pack 480 [
  0x00097000960009500094000930009200091000900008f0008e0008d0008c0008b0008a00089000880008700086000850008400083000820008100080,
  0x000b1000b0000af000ae000ad000ac000ab000a9000a8000a7000a6000a5000a4000a3000a2000a00009f0009e0009d0009c0009b0009a0009900098,
  0x005d9005d8005d7005d6005d5005d4005d3005d2005d1005d0000f7000d7000be000bd000bc000bb000b9000b8000b7000b6000b5000b4000b3000b2,
  0x020170200f0200e005ea005e9005e8005e7005e6005e5005e4005e3005e2005e1005e0005df005de005dd005dc005db005da]

/-- `index_pointer_iso_8859_8_0` (lib/whatwg/encoding/indexes_pointer.cpp:44), 92 entries. -/
def ptr0Iso88598 : Table := ⟨20, 92, ptr0Iso88598Data⟩

/-- Rows of `index_pointer_iso_8859_8_1`. -/
def ptr1Iso88598Data : Nat := pack 480 [
  0x001d001c001b001a0019001800170016001500140013001200110010000f000e000d000c000b000a0009000800070006000500040003000200010000,
  0x003e003d003c003b0039003800370036003500340033003200310030002f002e002d002c002b002900280027002600250024002300220020001f001e,
  0x007d007a0079007800770076007500740073007200710070006f006e006d006c006b006a0069006800670066006500640063006200610060003a002a,
  0x005f007e]

/-- `index_pointer_iso_8859_8_1` (lib/whatwg/encoding/indexes_pointer.cpp:45), 92 entries. -/
def ptr1Iso88598 : Table := ⟨16, 92, ptr1Iso88598Data⟩

/-- Rows of `index_code_point_iso_8859_10`. -/
def cpIso885910Data : Nat := pack 480 [
  0x00097000960009500094000930009200091000900008f0008e0008d0008c0008b0008a00089000880008700086000850008400083000820008100080,
  0x0014a0016a000ad0017d0016600160001100013b000a700136001280012a001220011200104000a00009f0009e0009d0009c0009b0009a0009900098,
  0x0012e000c6000c5000c4000c3000c2000c1001000014b0016b020150017e0016700161001110013c000b700137001290012b001230011300105000b0,
  0x000df000de000dd000dc000db000da00172000d800168000d6000d5000d4000d30014c00145000d0000cf000ce000cd00116000cb00118000c90010c,
  0x00169000f6000f5000f4000f30014d00146000f0000ef000ee000ed00117000eb00119000e90010d0012f000e6000e5000e4000e3000e2000e100101,
  0x00138000fe000fd000fc000fb000fa00173000f8]

/-- `index_code_point_iso_8859_10` (lib/whatwg/encoding/indexes_code_point.cpp:19), 128 entries. -/
def cpIso885910 : Table := ⟨20, 128, cpIso885910Data⟩

/-- Rows of `index_pointer_iso_8859_10_0`. -/
def ptr0Iso885910Data : Nat := pack 480 [
  0x00097000960009500094000930009200091000900008f0008e0008d0008c0008b0008a00089000880008700086000850008400083000820008100080,
  0x000cf000ce000cd000cb000c9000c6000c5000c4000c3000c2000c1000b7000b0000ad000a7000a00009f0009e0009d0009c0009b0009a0009900098,
  0x000f0000ef000ee000ed000eb000e9000e6000e5000e4000e3000e2000e1000df000de000dd000dc000db000da000d8000d6000d5000d4000d3000d0,
  0x00119001180011700116001130011200111001100010d0010c00105001040010100100000fe000fd000fc000fb000fa000f8000f6000f5000f4000f3,
  0x00168001670016600161001600014d0014c0014b0014a00146001450013c0013b0013800137001360012f0012e0012b0012a00129001280012300122,
  0x020150017e0017d00173001720016b0016a00169]

/-- `index_pointer_iso_8859_10_0` (lib/whatwg/encoding/indexes_pointer.cpp:47), 128 entries. -/
def ptr0Iso885910 : Table := ⟨20, 128, ptr0Iso885910Data⟩

/-- Rows of `index_pointer_iso_8859_10_1`. -/
def ptr1Iso885910Data : Nat := pack 480 [
  0x001d001c001b001a0019001800170016001500140013001200110010000f000e000d000c000b000a0009000800070006000500040003000200010000,
  0x005f005e005d005c005b005a005800560055005400530050004f004e004d004b004900460045004400430042004100370030002d00270020001f001e,
  0x00390029006800480031002100600040007e007d007c007b007a007800760075007400730070006f006e006d006b0069006600650064006300620061,
  0x0057003b002b003a002a00720052003f002f0071005100380028007f0036002600670047003400240035002500330023006a004a006c004c00320022,
  0x003d003c002c00790059003e002e0077]

/-- `index_pointer_iso_8859_10_1` (lib/whatwg/encoding/indexes_pointer.cpp:48), 128 entries. -/
def ptr1Iso885910 : Table := ⟨16, 128, ptr1Iso885910Data⟩

/-- Rows of `index_code_point_iso_8859_13`. -/
def cpIso885913Data : Nat := pack 480 [
  0x00097000960009500094000930009200091000900008f0008e0008d0008c0008b0008a00089000880008700086000850008400083000820008100080,
  0x000c6000ae000ad000ac000ab00156000a9000d8000a7000a60201e000a4000a3000a20201d000a00009f0009e0009d0009c0009b0009a0009900098,
  0x0011200118000c5000c400106001000012e00104000e6000be000bd000bc000bb00157000b9000f8000b7000b6000b50201c000b3000b2000b1000b0,
  0x000df0017d0017b000dc0016a0015a0014100172000d7000d6000d50014c000d30014500143001600013b0012a00136001220011600179000c90010c,
  0x000f7000f6000f50014d000f30014600144001610013c0012b0013700123001170017a000e90010d0011300119000e5000e400107001010012f00105,
  0x020190017e0017c000fc0016b0015b0014200173]

/-- `index_code_point_iso_8859_13` (lib/whatwg/encoding/indexes_code_point.cpp:20), 128 entries. -/
def cpIso885913 : Table := ⟨20, 128, cpIso885913Data⟩

/-- Rows of `index_pointer_iso_8859_13_0`. -/
def ptr0Iso885913Data : Nat := pack 480 [
  0x00097000960009500094000930009200091000900008f0008e0008d0008c0008b0008a00089000880008700086000850008400083000820008100080,
  0x000b5000b3000b2000b1000b0000ae000ad000ac000ab000a9000a7000a6000a4000a3000a2000a00009f0009e0009d0009c0009b0009a0009900098,
  0x000f5000f3000e9000e6000e5000e4000df000dc000d8000d7000d6000d5000d3000c9000c6000c5000c4000be000bd000bc000bb000b9000b7000b6,
  0x0012f0012e0012b0012a00123001220011900118001170011600113001120010d0010c001070010600105001040010100100000fc000f8000f7000f6,
  0x0017a0017900173001720016b0016a00161001600015b0015a00157001560014d0014c0014600145001440014300142001410013c0013b0013700136,
  0x0201e0201d0201c020190017e0017d0017c0017b]

/-- `index_pointer_iso_8859_13_0` (lib/whatwg/encoding/indexes_pointer.cpp:50), 128 entries. -/
def ptr0Iso885913 : Table := ⟨20, 128, ptr0Iso885913Data⟩

/-- Rows of `index_pointer_iso_8859_13_1`. -/
def ptr1Iso885913Data : Nat := pack 480 [
  0x001d001c001b001a0019001800170016001500140013001200110010000f000e000d000c000b000a0009000800070006000500040003000200010000,
  0x00530049002f00450044003e003d003c003b00390037003600350033003200310030002e002d002c002b0029002700260024002300220020001f001e,
  0x00660046006b004b0067004700680048006300430060004000620042007c003800770076007500730069003f00650064005f005c0028005700560055,
  0x006a004a00780058007b005b00700050007a005a003a002a00740054007200520071005100790059006f004f006d004d00610041006e004e006c004c,
  0x002500210034007f007e005e007d005d]

/-- `index_pointer_iso_8859_13_1` (lib/whatwg/encoding/indexes_pointer.cpp:51), 128 entries. -/
def ptr1Iso885913 : Table := ⟨16, 128, ptr1Iso885913Data⟩

/-- Rows of `index_code_point_iso_8859_14`. -/
def cpIso885914Data : Nat := pack 480 [
  0x00097000960009500094000930009200091000900008f0008e0008d0008c0008b0008a00089000880008700086000850008400083000820008100080,
  0x00178000ae000ad01ef201e0b01e82000a901e80000a701e0a0010b0010a000a301e0301e02000a00009f0009e0009d0009c0009b0009a0009900098,
  0x000c7000c6000c5000c4000c3000c2000c1000c001e6101e8501e8401ef301e6001e8301e5701e8101e56000b601e4101e40001210012001e1f01e1e,
  0x000df00176000dd000dc000db000da000d9000d801e6a000d6000d5000d4000d3000d2000d100174000cf000ce000cd000cc000cb000ca000c9000c8,
  0x01e6b000f6000f5000f4000f3000f2000f100175000ef000ee000ed000ec000eb000ea000e9000e8000e7000e6000e5000e4000e3000e2000e1000e0,
  0x000ff00177000fd000fc000fb000fa000f9000f8]

/-- `index_code_point_iso_8859_14` (lib/whatwg/encoding/indexes_code_point.cpp:21), 128 entries. -/
def cpIso885914 : Table := ⟨20, 128, cpIso885914Data⟩

/-- Rows of `index_pointer_iso_8859_14_0`. -/
def ptr0Iso885914Data : Nat := pack 480 [
  0x00097000960009500094000930009200091000900008f0008e0008d0008c0008b0008a00089000880008700086000850008400083000820008100080,
  0x000c8000c7000c6000c5000c4000c3000c2000c1000c0000b6000ae000ad000a9000a7000a3000a00009f0009e0009d0009c0009b0009a0009900098,
  0x000e3000e2000e1000e0000df000dd000dc000db000da000d9000d8000d6000d5000d4000d3000d2000d1000cf000ce000cd000cc000cb000ca000c9,
  0x000fd000fc000fb000fa000f9000f8000f6000f5000f4000f3000f2000f1000ef000ee000ed000ec000eb000ea000e9000e8000e7000e6000e5000e4,
  0x01e6b01e6a01e6101e6001e5701e5601e4101e4001e1f01e1e01e0b01e0a01e0301e02001780017700176001750017400121001200010b0010a000ff,
  0x01ef301ef201e8501e8401e8301e8201e8101e80]

/-- `index_pointer_iso_8859_14_0` (lib/whatwg/encoding/indexes_pointer.cpp:53), 128 entries. -/
def ptr0Iso885914 : Table := ⟨20, 128, ptr0Iso885914Data⟩

/-- Rows of `index_pointer_iso_8859_14_1`. -/
def ptr1Iso885914Data : Nat := pack 480 [
  0x001d001c001b001a0019001800170016001500140013001200110010000f000e000d000c000b000a0009000800070006000500040003000200010000,
  0x00550054005300520051004f004e004d004c004b004a00490048004700460045004400430042004100400036002e002d0029002700230020001f001e,
  0x007600750074007300720071006f006e006d006c006b006a0069006800670066006500640063006200610060005f005d005c005b005a005900580056,
  0x00770057003f003b003900370035003400310030002b002600220021002f007e005e007000500033003200250024007f007d007c007b007a00790078,
  0x003c002c003e003d003a002a00380028]

/-- `index_pointer_iso_8859_14_1` (lib/whatwg/encoding/indexes_pointer.cpp:54), 128 entries. -/
def ptr1Iso885914 : Table := ⟨16, 128, ptr1Iso885914Data⟩

/-- Rows of `index_code_point_iso_8859_15`. -/
def cpIso885915Data : Nat := pack 480 [
  0x00097000960009500094000930009200091000900008f0008e0008d0008c0008b0008a00089000880008700086000850008400083000820008100080,
  0x000af000ae000ad000ac000ab000aa000a900161000a700160000a5020ac000a3000a2000a1000a00009f0009e0009d0009c0009b0009a0009900098,
  0x000c7000c6000c5000c4000c3000c2000c1000c0000bf001780015300152000bb000ba000b90017e000b7000b6000b50017d000b3000b2000b1000b0,
  0x000df000de000dd000dc000db000da000d9000d8000d7000d6000d5000d4000d3000d2000d1000d0000cf000ce000cd000cc000cb000ca000c9000c8,
  0x000f7000f6000f5000f4000f3000f2000f1000f0000ef000ee000ed000ec000eb000ea000e9000e8000e7000e6000e5000e4000e3000e2000e1000e0,
  0x000ff000fe000fd000fc000fb000fa000f9000f8]

/-- `index_code_point_iso_8859_15` (lib/whatwg/encoding/indexes_code_point.cpp:22), 128 entries. -/
def cpIso885915 : Table := ⟨20, 128, cpIso885915Data⟩

/-- Rows of `index_pointer_iso_8859_15_0`. -/
def ptr0Iso885915Data : Nat := pack 480 [
  0x00097000960009500094000930009200091000900008f0008e0008d0008c0008b0008a00089000880008700086000850008400083000820008100080,
  0x000b2000b1000b0000af000ae000ad000ac000ab000aa000a9000a7000a5000a3000a2000a1000a00009f0009e0009d0009c0009b0009a0009900098,
  0x000cf000ce000cd000cc000cb000ca000c9000c8000c7000c6000c5000c4000c3000c2000c1000c0000bf000bb000ba000b9000b7000b6000b5000b3,
  0x000e7000e6000e5000e4000e3000e2000e1000e0000df000de000dd000dc000db000da000d9000d8000d7000d6000d5000d4000d3000d2000d1000d0,
  0x000ff000fe000fd000fc000fb000fa000f9000f8000f7000f6000f5000f4000f3000f2000f1000f0000ef000ee000ed000ec000eb000ea000e9000e8,
  0x020ac0017e0017d0017800161001600015300152]

/-- `index_pointer_iso_8859_15_0` (lib/whatwg/encoding/indexes_pointer.cpp:56), 128 entries. -/
def ptr0Iso885915 : Table := ⟨20, 128, ptr0Iso885915Data⟩

/-- Rows of `index_pointer_iso_8859_15_1`. -/
def ptr1Iso885915Data : Nat := pack 480 [
  0x001d001c001b001a0019001800170016001500140013001200110010000f000e000d000c000b000a0009000800070006000500040003000200010000,
  0x0043004200410040003f003b003a00390037003600350033003200310030002f002e002d002c002b002a0029002700250023002200210020001f001e,
  0x00610060005f005e005d005c005b005a0059005800570056005500540053005200510050004f004e004d004c004b004a004900480047004600450044,
  0x007f007e007d007c007b007a0079007800770076007500740073007200710070006f006e006d006c006b006a00690068006700660065006400630062,
  0x002400380034003e00280026003d003c]

/-- `index_pointer_iso_8859_15_1` (lib/whatwg/encoding/indexes_pointer.cpp:57), 128 entries. -/
def ptr1Iso885915 : Table := ⟨16, 128, ptr1Iso885915Data⟩

/-- Rows of `index_code_point_iso_8859_16`. -/
def cpIso885916Data : Nat := pack 480 [
  0x00097000960009500094000930009200091000900008f0008e0008d0008c0008b0008a00089000880008700086000850008400083000820008100080,
  0x0017b0017a000ad00179000ab00218000a900161000a7001600201e020ac001410010500104000a00009f0009e0009d0009c0009b0009a0009900098,
  0x000c7000c600106000c400102000c2000c1000c00017c001780015300152000bb002190010d0017e000b7000b60201d0017d001420010c000b1000b0,
  0x000df0021a00118000dc000db000da000d9001700015a000d600150000d4000d3000d20014300110000cf000ce000cd000cc000cb000ca000c9000c8,
  0x0015b000f600151000f4000f3000f20014400111000ef000ee000ed000ec000eb000ea000e9000e8000e7000e600107000e400103000e2000e1000e0,
  0x000ff0021b00119000fc000fb000fa000f900171]

/-- `index_code_point_iso_8859_16` (lib/whatwg/encoding/indexes_code_point.cpp:23), 128 entries. -/
def cpIso885916 : Table := ⟨20, 128, cpIso885916Data⟩

/-- Rows of `index_pointer_iso_8859_16_0`. -/
def ptr0Iso885916Data : Nat := pack 480 [
  0x00097000960009500094000930009200091000900008f0008e0008d0008c0008b0008a00089000880008700086000850008400083000820008100080,
  0x000c7000c6000c4000c2000c1000c0000bb000b7000b6000b1000b0000ad000ab000a9000a7000a00009f0009e0009d0009c0009b0009a0009900098,
  0x000e8000e7000e6000e4000e2000e1000e0000df000dc000db000da000d9000d6000d4000d3000d2000cf000ce000cd000cc000cb000ca000c9000c8,
  0x0010d0010c001070010600105001040010300102000ff000fc000fb000fa000f9000f6000f4000f3000f2000ef000ee000ed000ec000eb000ea000e9,
  0x0017d0017c0017b0017a0017900178001710017000161001600015b0015a001530015200151001500014400143001420014100119001180011100110,
  0x020ac0201e0201d0021b0021a00219002180017e]

/-- `index_pointer_iso_8859_16_0` (lib/whatwg/encoding/indexes_pointer.cpp:59), 128 entries. -/
def ptr0Iso885916 : Table := ⟨20, 128, ptr0Iso885916Data⟩

/-- Rows of `index_pointer_iso_8859_16_1`. -/
def ptr1Iso885916Data : Nat := pack 480 [
  0x001d001c001b001a0019001800170016001500140013001200110010000f000e000d000c000b000a0009000800070006000500040003000200010000,
  0x0056005400530052004f004e004d004c004b004a00490048004700460044004200410040003b0037003600310030002d002b002900270020001f001e,
  0x00630043007f007c007b007a00790076007400730072006f006e006d006c006b006a00690068006700660064006200610060005f005c005b005a0059,
  0x0034003f002f002e002c003e007800580028002600770057003d003c007500550071005100330023007d005d00700050003900320065004500220021,
  0x002400250035007e005e003a002a0038]

/-- `index_pointer_iso_8859_16_1` (lib/whatwg/encoding/indexes_pointer.cpp:60), 128 entries. -/
def ptr1Iso885916 : Table := ⟨16, 128, ptr1Iso885916Data⟩

/-- Rows of `index_code_point_koi8_r`. -/
def cpKoi8RData : Nat := pack 480 [
  0x022480221a02219025a002320025930259202591025900258c0258802584025800253c025340252c025240251c0251802514025100250c0250202500,
  0x0255e0255d0255c0255b0255a0255902558025570255602555025540255300451025520255102550000f7000b7000b2000b002321000a00226502264,
  0x004330044400435004340044600431004300044e000a90256c0256b0256a02569025680256702566025650256402563025620040102561025600255f,
  0x0044a00447004490044d00448004370044b0044c0043200436004430044200441004400044f0043f0043e0043d0043c0043b0043a004390043800445,
  0x0041200416004230042200421004200042f0041f0041e0041d0041c0041b0041a004190041800425004130042400415004140042600411004100042e,
  0x0042a00427004290042d00428004170042b0042c]

/-- `index_code_point_koi8_r` (lib/whatwg/encoding/indexes_code_point.cpp:24), 128 entries. -/
def cpKoi8R : Table := ⟨20, 128, cpKoi8RData⟩

/-- Rows of `index_pointer_koi8_r_0`. -/
def ptr0Koi8RData : Nat := pack 480 [
  0x004200041f0041e0041d0041c0041b0041a0041900418004170041600415004140041300412004110041000401000f7000b7000b2000b0000a9000a0,
  0x0043800437004360043500434004330043200431004300042f0042e0042d0042c0042b0042a004290042800427004260042500424004230042200421,
  0x004510044f0044e0044d0044c0044b0044a004490044800447004460044500444004430044200441004400043f0043e0043d0043c0043b0043a00439,
  0x0255502554025530255202551025500253c025340252c025240251c0251802514025100250c025020250002321023200226502264022480221a02219,
  0x025800256c0256b0256a025690256802567025660256502564025630256202561025600255f0255e0255d0255c0255b0255a02559025580255702556,
  0x025a0025930259202591025900258c0258802584]

/-- `index_pointer_koi8_r_0` (lib/whatwg/encoding/indexes_pointer.cpp:62), 128 entries. -/
def ptr0Koi8R : Table := ⟨20, 128, ptr0Koi8RData⟩

/-- Rows of `index_pointer_koi8_r_1`. -/
def ptr1Koi8RData : Nat := pack 480 [
  0x00630068006600750074007300720070006f006e006d006c006b006a0069007a00760065006400670077006200610033001f001e001d001c003f001a,
  0x004600550054005300520050004f004e004d004c004b004a0049005a005600450044004700570042004100710060007c00780079007f007d007b007e,
  0x000a0009000800070006000500040003000200010000001b001300190018001700160015002300510040005c00580059005f005d005b005e00430048,
  0x000b003e003d003c003b003a003900380037003600350034003200310030002f002e002d002c002b002a002900280027002600250024002200210020,
  0x0014001200110010000f000e000d000c]

/-- `index_pointer_koi8_r_1` (lib/whatwg/encoding/indexes_pointer.cpp:63), 128 entries. -/
def ptr1Koi8R : Table := ⟨16, 128, ptr1Koi8RData⟩

/-- Rows of `index_code_point_koi8_u`. -/
def cpKoi8UData : Nat := pack 480 [
  0x022480221a02219025a002320025930259202591025900258c0258802584025800253c025340252c025240251c0251802514025100250c0250202500,
  0x0255e0045e004910255b0255a0255902558025570045700456025540045400451025520255102550000f7000b7000b2000b002321000a00226502264,
  0x004330044400435004340044600431004300044e000a90040e004900256a02569025680256702566004070040602563004040040102561025600255f,
  0x0044a00447004490044d00448004370044b0044c0043200436004430044200441004400044f0043f0043e0043d0043c0043b0043a004390043800445,
  0x0041200416004230042200421004200042f0041f0041e0041d0041c0041b0041a004190041800425004130042400415004140042600411004100042e,
  0x0042a00427004290042d00428004170042b0042c]

/-- `index_code_point_koi8_u` (lib/whatwg/encoding/indexes_code_point.cpp:25), 128 entries. -/
def cpKoi8U : Table := ⟨20, 128, cpKoi8UData⟩

/-- Rows of `index_pointer_koi8_u_0`. -/
def ptr0Koi8UData : Nat := pack 480 [
  0x0041c0041b0041a004190041800417004160041500414004130041200411004100040e00407004060040400401000f7000b7000b2000b0000a9000a0,
  0x00434004330043200431004300042f0042e0042d0042c0042b0042a004290042800427004260042500424004230042200421004200041f0041e0041d,
  0x0044c0044b0044a004490044800447004460044500444004430044200441004400043f0043e0043d0043c0043b0043a0043900438004370043600435,
  0x0251c0251802514025100250c025020250002321023200226502264022480221a0221900491004900045e004570045600454004510044f0044e0044d,
  0x025800256a025690256802567025660256302561025600255f0255e0255b0255a025590255802557025540255202551025500253c025340252c02524,
  0x025a0025930259202591025900258c0258802584]

/-- `index_pointer_koi8_u_0` (lib/whatwg/encoding/indexes_pointer.cpp:65), 128 entries. -/
def ptr0Koi8U : Table := ⟨20, 128, ptr0Koi8UData⟩

/-- Rows of `index_pointer_koi8_u_1`. -/
def ptr1Koi8UData : Nat := pack 480 [
  0x0074007300720070006f006e006d006c006b006a0069007a0076006500640067007700620061003e0037003600340033001f001e001d001c003f001a,
  0x00520050004f004e004d004c004b004a0049005a005600450044004700570042004100710060007c00780079007f007d007b007e0063006800660075,
  0x0000001b001300190018001700160015002d003d002e002700260024002300510040005c00580059005f005d005b005e004300480046005500540053,
  0x000b003c003b003a003900380035003200310030002f002c002b002a002900280025002200210020000a000900080007000600050004000300020001,
  0x0014001200110010000f000e000d000c]

/-- `index_pointer_koi8_u_1` (lib/whatwg/encoding/indexes_pointer.cpp:66), 128 entries. -/
def ptr1Koi8U : Table := ⟨16, 128, ptr1Koi8UData⟩

/-- Rows of `index_code_point_macintosh`. -/
def cpMacintoshData : Nat := pack 480 [
  0x000f3000f1000ef000ee000ec000ed000eb000ea000e8000e9000e7000e5000e3000e4000e2000e0000e1000dc000d6000d1000c9000c7000c5000c4,
  0x000d8000c602260000a8000b402122000a9000ae000df000b602022000a7000a3000a2000b002020000fc000fb000f9000fa000f5000f6000f4000f2,
  0x000ab0220602248001920221a000ac000a1000bf000f8000e6003a9000ba000aa0222b003c00220f0221102202000b5000a50226502264000b10221e,
  0x0fb020fb010203a02039020ac0204400178000ff025ca000f702019020180201d0201c02014020130015300152000d5000c3000c0000a002026000bb,
  0x002dc002c600131000d9000db000da000d20f8ff000d4000d3000cc000cf000ce000cd000c8000cb000c1000ca000c2020300201e0201a000b702021,
  0x002c7002db002dd000b8002da002d9002d8000af]

/-- `index_code_point_macintosh` (lib/whatwg/encoding/indexes_code_point.cpp:26), 128 entries. -/
def cpMacintosh : Table := ⟨20, 128, cpMacintoshData⟩

/-- Rows of `index_pointer_macintosh_0`. -/
def ptr0MacintoshData : Nat := pack 480 [
  0x000c0000bf000bb000ba000b8000b7000b6000b5000b4000b1000b0000af000ae000ac000ab000aa000a9000a8000a7000a5000a3000a2000a1000a0,
  0x000da000d9000d8000d6000d5000d4000d3000d2000d1000cf000ce000cd000cc000cb000ca000c9000c8000c7000c6000c5000c4000c3000c2000c1,
  0x000f5000f4000f3000f2000f1000ef000ee000ed000ec000eb000ea000e9000e8000e7000e6000e5000e4000e3000e2000e1000e0000df000dc000db,
  0x02013003c0003a9002dd002dc002db002da002d9002d8002c7002c60019200178001530015200131000ff000fc000fb000fa000f9000f8000f7000f6,
  0x0222b0221e0221a022110220f022060220202122020ac020440203a0203902030020260202202021020200201e0201d0201c0201a020190201802014,
  0x0fb020fb010f8ff025ca02265022640226002248]

/-- `index_pointer_macintosh_0` (lib/whatwg/encoding/indexes_pointer.cpp:68), 128 entries. -/
def ptr0Macintosh : Table := ⟨20, 128, ptr0MacintoshData⟩

/-- Rows of `index_pointer_macintosh_1`. -/
def ptr1MacintoshData : Nat := pack 480 [
  0x002e00010000004c00650067004b00400048003c007c006100260035002b003100210078002800420047003b0029002c00240034002300220041004a,
  0x000f000d003e000c000a000b00090007000800270006007300720074002f0005004d006f006e00710004006c006b006a006d00680066000300690002,
  0x007b007a0079007f007600440059004f004e00750058001f001e001c001d003f0056001a001b0019001700180016001500140012001300110010000e,
  0x003a003000430037003800460036002a005b005a005d005c00640049002500600020006300530052006200550054005100500039003d007d0077007e,
  0x005f005e0070005700330032002d0045]

/-- `index_pointer_macintosh_1` (lib/whatwg/encoding/indexes_pointer.cpp:69), 128 entries. -/
def ptr1Macintosh : Table := ⟨16, 128, ptr1MacintoshData⟩

/-- Rows of `index_code_point_windows_874`. -/
def cpWindows874Data : Nat := pack 480 [
  0x0201402013020220201d0201c0201902018000900008f0008e0008d0008c0008b0008a000890008800087000860202600084000830008200081020ac,
  0x00e0f00e0e00e0d00e0c00e0b00e0a00e0900e0800e0700e0600e0500e0400e0300e0200e01000a00009f0009e0009d0009c0009b0009a0009900098,
  0x00e2700e2600e2500e2400e2300e2200e2100e2000e1f00e1e00e1d00e1c00e1b00e1a00e1900e1800e1700e1600e1500e1400e1300e1200e1100e10,
  0x00e3fffffffffffffffffffff00e3a00e3900e3800e3700e3600e3500e3400e3300e3200e3100e3000e2f00e2e00e2d00e2c00e2b00e2a00e2900e28,
  0x00e5700e5600e5500e5400e5300e5200e5100e5000e4f00e4e00e4d00e4c00e4b00e4a00e4900e4800e4700e4600e4500e4400e4300e4200e4100e40,
  0xffffffffffffffffffff00e5b00e5a00e5900e58]

/-- `index_code_point_windows_874` (lib/whatwg/encoding/indexes_code_point.cpp:27), 128 entries. -/
def cpWindows874 : Table := ⟨20, 128, cpWindows874Data⟩

/-- Rows of `index_pointer_windows_874_0`. -/
def ptr0Windows874Data : Nat := pack 480 [
  0x000a00009f0009e0009d0009c0009b0009a0009900098000900008f0008e0008d0008c0008b0008a0008900088000870008600084000830008200081,
  0x00e1800e1700e1600e1500e1400e1300e1200e1100e1000e0f00e0e00e0d00e0c00e0b00e0a00e0900e0800e0700e0600e0500e0400e0300e0200e01,
  0x00e3000e2f00e2e00e2d00e2c00e2b00e2a00e2900e2800e2700e2600e2500e2400e2300e2200e2100e2000e1f00e1e00e1d00e1c00e1b00e1a00e19,
  0x00e4c00e4b00e4a00e4900e4800e4700e4600e4500e4400e4300e4200e4100e4000e3f00e3a00e3900e3800e3700e3600e3500e3400e3300e3200e31,
  0x020ac02026020220201d0201c0201902018020140201300e5b00e5a00e5900e5800e5700e5600e5500e5400e5300e5200e5100e5000e4f00e4e00e4d]

/-- `index_pointer_windows_874_0` (lib/whatwg/encoding/indexes_pointer.cpp:71), 120 entries. -/
def ptr0Windows874 : Table := ⟨20, 120, ptr0Windows874Data⟩

/-- Rows of `index_pointer_windows_874_1`. -/
def ptr1Windows874Data : Nat := pack 480 [
  0x0026002500240023002200210020001f001e001d001c001b001a001900180010000f000e000d000c000b000a00090008000700060004000300020001,
  0x00440043004200410040003f003e003d003c003b003a0039003800370036003500340033003200310030002f002e002d002c002b002a002900280027,
  0x0066006500640063006200610060005f005a0059005800570056005500540053005200510050004f004e004d004c004b004a00490048004700460045,
  0x000000050015001400130012001100170016007b007a0079007800770076007500740073007200710070006f006e006d006c006b006a006900680067]

/-- `index_pointer_windows_874_1` (lib/whatwg/encoding/indexes_pointer.cpp:72), 120 entries. -/
def ptr1Windows874 : Table := ⟨16, 120, ptr1Windows874Data⟩

/-- Rows of `index_code_point_windows_1250`. -/
def cpWindows1250Data : Nat := pack 480 [
  0x0201402013020220201d0201c020190201800090001790017d001640015a020390016002030000880202102020020260201e000830201a00081020ac,
  0x0017b000ae000ad000ac000ab0015e000a9000a8000a7000a600104000a400141002d8002c7000a00017a0017e001650015b0203a001610212200098,
  0x000c70010600139000c400102000c2000c1001540017c0013e002dd0013d000bb0015f00105000b8000b7000b6000b5000b400142002db000b1000b0,
  0x000df00162000dd000dc00170000da0016e00158000d7000d600150000d4000d30014700143001100010e000ce000cd0011a000cb00118000c90010c,
  0x000f7000f600151000f4000f30014800144001110010f000ee000ed0011b000eb00119000e90010d000e7001070013a000e400103000e2000e100155,
  0x002d900163000fd000fc00171000fa0016f00159]

/-- `index_code_point_windows_1250` (lib/whatwg/encoding/indexes_code_point.cpp:28), 128 entries. -/
def cpWindows1250 : Table := ⟨20, 128, cpWindows1250Data⟩

/-- Rows of `index_pointer_windows_1250_0`. -/
def ptr0Windows1250Data : Nat := pack 480 [
  0x000c1000bb000b8000b7000b6000b5000b4000b1000b0000ae000ad000ac000ab000a9000a8000a7000a6000a4000a00009800090000880008300081,
  0x000f3000ee000ed000eb000e9000e7000e4000e2000e1000df000dd000dc000da000d7000d6000d4000d3000ce000cd000cb000c9000c7000c4000c2,
  0x0013a001390011b0011a001190011800111001100010f0010e0010d0010c001070010600105001040010300102000fd000fc000fa000f7000f6000f4,
  0x0016500164001630016200161001600015f0015e0015b0015a0015900158001550015400151001500014800147001440014300142001410013e0013d,
  0x020200201e0201d0201c0201a02019020180201402013002dd002db002d9002d8002c70017e0017d0017c0017b0017a0017900171001700016f0016e,
  0x02122020ac0203a0203902030020260202202021]

/-- `index_pointer_windows_1250_0` (lib/whatwg/encoding/indexes_pointer.cpp:74), 128 entries. -/
def ptr0Windows1250 : Table := ⟨20, 128, ptr0Windows1250Data⟩

/-- Rows of `index_pointer_windows_1250_1`. -/
def ptr1Windows1250Data : Nat := pack 480 [
  0x004d004b00490047004400420041003b0038003700360035003400310030002e002d002c002b00290028002700260024002000180010000800030001,
  0x006600460039002500630043007d007c007a0077007600740073006e006d006b00690067006400620061005f005d005c005a0057005600540053004e,
  0x003a002a001c000c007800580060004000750055007200520071005100330023003e003c00650045006c004c006a004a00700050006f004f00680048,
  0x000600040014001300020012001100170016003d0032007f00220021001e000e003f002f001f000f007b005b00790059001d000d007e005e001a000a,
  0x00190000001b000b0009000500150007]

/-- `index_pointer_windows_1250_1` (lib/whatwg/encoding/indexes_pointer.cpp:75), 128 entries. -/
def ptr1Windows1250 : Table := ⟨16, 128, ptr1Windows1250Data⟩

/-- Rows of `index_code_point_windows_1251`. -/
def cpWindows1251Data : Nat := pack 480 [
  0x0201402013020220201d0201c0201902018004520040f0040b0040c0040a020390040902030020ac0202102020020260201e004530201a0040300402,
  0x00407000ae000ad000ac000ab00404000a900401000a7000a600490000a4004080045e0040e000a00045f0045b0045c0045a0203a004590212200098,
  0x004170041600415004140041300412004110041000457004550040500458000bb004540211600451000b7000b6000b5004910045600406000b1000b0,
  0x0042f0042e0042d0042c0042b0042a004290042800427004260042500424004230042200421004200041f0041e0041d0041c0041b0041a0041900418,
  0x00447004460044500444004430044200441004400043f0043e0043d0043c0043b0043a00439004380043700436004350043400433004320043100430,
  0x0044f0044e0044d0044c0044b0044a0044900448]

/-- `index_code_point_windows_1251` (lib/whatwg/encoding/indexes_code_point.cpp:29), 128 entries. -/
def cpWindows1251 : Table := ⟨20, 128, cpWindows1251Data⟩

/-- Rows of `index_pointer_windows_1251_0`. -/
def ptr0Windows1251Data : Nat := pack 480 [
  0x0040800407004060040500404004030040200401000bb000b7000b6000b5000b1000b0000ae000ad000ac000ab000a9000a7000a6000a4000a000098,
  0x00421004200041f0041e0041d0041c0041b0041a004190041800417004160041500414004130041200411004100040f0040e0040c0040b0040a00409,
  0x004390043800437004360043500434004330043200431004300042f0042e0042d0042c0042b0042a0042900428004270042600425004240042300422,
  0x00452004510044f0044e0044d0044c0044b0044a004490044800447004460044500444004430044200441004400043f0043e0043d0043c0043b0043a,
  0x02021020200201e0201d0201c0201a0201902018020140201300491004900045f0045e0045c0045b0045a00459004580045700456004550045400453,
  0x0212202116020ac0203a02039020300202602022]

/-- `index_pointer_windows_1251_0` (lib/whatwg/encoding/indexes_pointer.cpp:77), 128 entries. -/
def ptr0Windows1251 : Table := ⟨20, 128, ptr0Windows1251Data⟩

/-- Rows of `index_pointer_windows_1251_1`. -/
def ptr1Windows1251Data : Nat := pack 480 [
  0x000f0021000d000e000c000a0023002f0032003d002a000100000028003b00370036003500310030002e002d002c002b002900270026002400200018,
  0x005d005c005b005a0059005800570056005500540053005200510050004f004e004d004c004b004a0049004800470046004500440043004200410040,
  0x007b007a0079007800770076007500740073007200710070006f006e006d006c006b006a0069006800670066006500640063006200610060005f005e,
  0x000700060004001400130002001200110017001600340025001f0022001d001e001c001a003c003f0033003e003a000300100038007f007e007d007c,
  0x001900390008001b000b000900050015]

/-- `index_pointer_windows_1251_1` (lib/whatwg/encoding/indexes_pointer.cpp:78), 128 entries. -/
def ptr1Windows1251 : Table := ⟨16, 128, ptr1Windows1251Data⟩

/-- Rows of `index_code_point_windows_1252`. -/
def cpWindows1252Data : Nat := pack 480 [
  0x0201402013020220201d0201c0201902018000900008f0017d0008d00152020390016002030002c60202102020020260201e001920201a00081020ac,
  0x000af000ae000ad000ac000ab000aa000a9000a8000a7000a6000a5000a4000a3000a2000a1000a0001780017e0009d001530203a0016102122002dc,
  0x000c7000c6000c5000c4000c3000c2000c1000c0000bf000be000bd000bc000bb000ba000b9000b8000b7000b6000b5000b4000b3000b2000b1000b0,
  0x000df000de000dd000dc000db000da000d9000d8000d7000d6000d5000d4000d3000d2000d1000d0000cf000ce000cd000cc000cb000ca000c9000c8,
  0x000f7000f6000f5000f4000f3000f2000f1000f0000ef000ee000ed000ec000eb000ea000e9000e8000e7000e6000e5000e4000e3000e2000e1000e0,
  0x000ff000fe000fd000fc000fb000fa000f9000f8]

/-- `index_code_point_windows_1252` (lib/whatwg/encoding/indexes_code_point.cpp:30), 128 entries. -/
def cpWindows1252 : Table := ⟨20, 128, cpWindows1252Data⟩

/-- Rows of `index_pointer_windows_1252_0`. -/
def ptr0Windows1252Data : Nat := pack 480 [
  0x000b2000b1000b0000af000ae000ad000ac000ab000aa000a9000a8000a7000a6000a5000a4000a3000a2000a1000a00009d000900008f0008d00081,
  0x000ca000c9000c8000c7000c6000c5000c4000c3000c2000c1000c0000bf000be000bd000bc000bb000ba000b9000b8000b7000b6000b5000b4000b3,
  0x000e2000e1000e0000df000de000dd000dc000db000da000d9000d8000d7000d6000d5000d4000d3000d2000d1000d0000cf000ce000cd000cc000cb,
  0x000fa000f9000f8000f7000f6000f5000f4000f3000f2000f1000f0000ef000ee000ed000ec000eb000ea000e9000e8000e7000e6000e5000e4000e3,
  0x020200201e0201d0201c0201a02019020180201402013002dc002c6001920017e0017d0017800161001600015300152000ff000fe000fd000fc000fb,
  0x02122020ac0203a0203902030020260202202021]

/-- `index_pointer_windows_1252_0` (lib/whatwg/encoding/indexes_pointer.cpp:80), 128 entries. -/
def ptr0Windows1252 : Table := ⟨20, 128, ptr0Windows1252Data⟩

/-- Rows of `index_pointer_windows_1252_1`. -/
def ptr1Windows1252Data : Nat := pack 480 [
  0x003800370036003500340033003200310030002f002e002d002c002b002a0029002800270026002500240023002200210020001d0010000f000d0001,
  0x0056005500540053005200510050004f004e004d004c004b004a0049004800470046004500440043004200410040003f003e003d003c003b003a0039,
  0x00740073007200710070006f006e006d006c006b006a0069006800670066006500640063006200610060005f005e005d005c005b005a005900580057,
  0x000600040014001300020012001100170016001800080003001e000e001f001a000a001c000c007f007e007d007c007b007a00790078007700760075,
  0x00190000001b000b0009000500150007]

/-- `index_pointer_windows_1252_1` (lib/whatwg/encoding/indexes_pointer.cpp:81), 128 entries. -/
def ptr1Windows1252 : Table := ⟨16, 128, ptr1Windows1252Data⟩

/-- Rows of `index_code_point_windows_1253`. -/
def cpWindows1253Data : Nat := pack 480 [
  0x0201402013020220201d0201c0201902018000900008f0008e0008d0008c020390008a02030000880202102020020260201e001920201a00081020ac,
  0x02015000ae000ad000ac000abfffff000a9000a8000a7000a6000a5000a4000a30038600385000a00009f0009e0009d0009c0203a0009a0212200098,
  0x00397003960039500394003930039200391003900038f0038e000bd0038c000bb0038a0038900388000b7000b6000b500384000b3000b2000b1000b0,
  0x003af003ae003ad003ac003ab003aa003a9003a8003a7003a6003a5003a4003a3fffff003a1003a00039f0039e0039d0039c0039b0039a0039900398,
  0x003c7003c6003c5003c4003c3003c2003c1003c0003bf003be003bd003bc003bb003ba003b9003b8003b7003b6003b5003b4003b3003b2003b1003b0,
  0xfffff003ce003cd003cc003cb003ca003c9003c8]

/-- `index_code_point_windows_1253` (lib/whatwg/encoding/indexes_code_point.cpp:31), 128 entries. -/
def cpWindows1253 : Table := ⟨20, 128, cpWindows1253Data⟩

/-- Rows of `index_pointer_windows_1253_0`. -/
def ptr0Windows1253Data : Nat := pack 480 [
  0x000ac000ab000a9000a8000a7000a6000a5000a4000a3000a00009f0009e0009d0009c0009a00098000900008f0008e0008d0008c0008a0008800081,
  0x0039200391003900038f0038e0038c0038a003890038800386003850038400192000bd000bb000b7000b6000b5000b3000b2000b1000b0000ae000ad,
  0x003ab003aa003a9003a8003a7003a6003a5003a4003a3003a1003a00039f0039e0039d0039c0039b0039a00399003980039700396003950039400393,
  0x003c3003c2003c1003c0003bf003be003bd003bc003bb003ba003b9003b8003b7003b6003b5003b4003b3003b2003b1003b0003af003ae003ad003ac,
  0x020260202202021020200201e0201d0201c0201a0201902018020150201402013003ce003cd003cc003cb003ca003c9003c8003c7003c6003c5003c4,
  0x02122020ac0203a0203902030]

/-- `index_pointer_windows_1253_0` (lib/whatwg/encoding/indexes_pointer.cpp:83), 125 entries. -/
def ptr0Windows1253 : Table := ⟨20, 125, ptr0Windows1253Data⟩

/-- Rows of `index_pointer_windows_1253_1`. -/
def ptr1Windows1253Data : Nat := pack 480 [
  0x0033003200310030002e002d002c002b00290028002700260025002400230020001f001e001d001c001a00180010000f000e000d000c000a00080001,
  0x004e004d004c004b004a0049004800470046004500440043004200410040003f003e003c003a003900380022002100340003003d003b003700360035,
  0x006d006c006b006a0069006800670066006500640063006200610060005f005e005d005c005b005a005900580057005600550054005300510050004f,
  0x0005001500070006000400140013000200120011002f00170016007e007d007c007b007a0079007800770076007500740073007200710070006f006e,
  0x00190000001b000b0009]

/-- `index_pointer_windows_1253_1` (lib/whatwg/encoding/indexes_pointer.cpp:84), 125 entries. -/
def ptr1Windows1253 : Table := ⟨16, 125, ptr1Windows1253Data⟩

/-- Rows of `index_code_point_windows_1254`. -/
def cpWindows1254Data : Nat := pack 480 [
  0x0201402013020220201d0201c0201902018000900008f0008e0008d00152020390016002030002c60202102020020260201e001920201a00081020ac,
  0x000af000ae000ad000ac000ab000aa000a9000a8000a7000a6000a5000a4000a3000a2000a1000a0001780009e0009d001530203a0016102122002dc,
  0x000c7000c6000c5000c4000c3000c2000c1000c0000bf000be000bd000bc000bb000ba000b9000b8000b7000b6000b5000b4000b3000b2000b1000b0,
  0x000df0015e00130000dc000db000da000d9000d8000d7000d6000d5000d4000d3000d2000d10011e000cf000ce000cd000cc000cb000ca000c9000c8,
  0x000f7000f6000f5000f4000f3000f2000f10011f000ef000ee000ed000ec000eb000ea000e9000e8000e7000e6000e5000e4000e3000e2000e1000e0,
  0x000ff0015f00131000fc000fb000fa000f9000f8]

/-- `index_code_point_windows_1254` (lib/whatwg/encoding/indexes_code_point.cpp:32), 128 entries. -/
def cpWindows1254 : Table := ⟨20, 128, cpWindows1254Data⟩

/-- Rows of `index_pointer_windows_1254_0`. -/
def ptr0Windows1254Data : Nat := pack 480 [
  0x000b0000af000ae000ad000ac000ab000aa000a9000a8000a7000a6000a5000a4000a3000a2000a1000a00009e0009d000900008f0008e0008d00081,
  0x000c8000c7000c6000c5000c4000c3000c2000c1000c0000bf000be000bd000bc000bb000ba000b9000b8000b7000b6000b5000b4000b3000b2000b1,
  0x000e3000e2000e1000e0000df000dc000db000da000d9000d8000d7000d6000d5000d4000d3000d2000d1000cf000ce000cd000cc000cb000ca000c9,
  0x000fc000fb000fa000f9000f8000f7000f6000f5000f4000f3000f2000f1000ef000ee000ed000ec000eb000ea000e9000e8000e7000e6000e5000e4,
  0x020200201e0201d0201c0201a02019020180201402013002dc002c6001920017800161001600015f0015e001530015200131001300011f0011e000ff,
  0x02122020ac0203a0203902030020260202202021]

/-- `index_pointer_windows_1254_0` (lib/whatwg/encoding/indexes_pointer.cpp:86), 128 entries. -/
def ptr0Windows1254 : Table := ⟨20, 128, ptr0Windows1254Data⟩

/-- Rows of `index_pointer_windows_1254_1`. -/
def ptr1Windows1254Data : Nat := pack 480 [
  0x0036003500340033003200310030002f002e002d002c002b002a0029002800270026002500240023002200210020001e001d0010000f000e000d0001,
  0x00550054005300520051004f004e004d004c004b004a0049004800470046004500440043004200410040003f003e003d003c003b003a003900380037,
  0x007600750074007300720071006f006e006d006c006b006a0069006800670066006500640063006200610060005f005c005b005a0059005800570056,
  0x000600040014001300020012001100170016001800080003001f001a000a007e005e001c000c007d005d00700050007f007c007b007a007900780077,
  0x00190000001b000b0009000500150007]

/-- `index_pointer_windows_1254_1` (lib/whatwg/encoding/indexes_pointer.cpp:87), 128 entries. -/
def ptr1Windows1254 : Table := ⟨16, 128, ptr1Windows1254Data⟩

/-- Rows of `index_code_point_windows_1255`. -/
def cpWindows1255Data : Nat := pack 480 [
  0x0201402013020220201d0201c0201902018000900008f0008e0008d0008c020390008a02030002c60202102020020260201e001920201a00081020ac,
  0x000af000ae000ad000ac000ab000d7000a9000a8000a7000a6000a5020aa000a3000a2000a1000a00009f0009e0009d0009c0203a0009a02122002dc,
  0x005b7005b6005b5005b4005b3005b2005b1005b0000bf000be000bd000bc000bb000f7000b9000b8000b7000b6000b5000b4000b3000b2000b1000b0,
  0xfffffffffffffffffffffffffffffffffff005f4005f3005f2005f1005f0005c3005c2005c1005c0005bf005be005bd005bc005bb005ba005b9005b8,
  0x005e7005e6005e5005e4005e3005e2005e1005e0005df005de005dd005dc005db005da005d9005d8005d7005d6005d5005d4005d3005d2005d1005d0,
  0xfffff0200f0200effffffffff005ea005e9005e8]

/-- `index_code_point_windows_1255` (lib/whatwg/encoding/indexes_code_point.cpp:33), 128 entries. -/
def cpWindows1255 : Table := ⟨20, 128, cpWindows1255Data⟩

/-- Rows of `index_pointer_windows_1255_0`. -/
def ptr0Windows1255Data : Nat := pack 480 [
  0x000ad000ac000ab000a9000a8000a7000a6000a5000a3000a2000a1000a00009f0009e0009d0009c0009a000900008f0008e0008d0008c0008a00081,
  0x005b1005b0002dc002c600192000f7000d7000bf000be000bd000bc000bb000b9000b8000b7000b6000b5000b4000b3000b2000b1000b0000af000ae,
  0x005d5005d4005d3005d2005d1005d0005c3005c2005c1005c0005bf005be005bd005bc005bb005ba005b9005b8005b7005b6005b5005b4005b3005b2,
  0x005f2005f1005f0005ea005e9005e8005e7005e6005e5005e4005e3005e2005e1005e0005df005de005dd005dc005db005da005d9005d8005d7005d6,
  0x02122020ac020aa0203a0203902030020260202202021020200201e0201d0201c0201a020190201802014020130200f0200e005f4005f3]

/-- `index_pointer_windows_1255_0` (lib/whatwg/encoding/indexes_pointer.cpp:89), 118 entries. -/
def ptr0Windows1255 : Table := ⟨20, 118, ptr0Windows1255Data⟩

/-- Rows of `index_pointer_windows_1255_1`. -/
def ptr1Windows1255Data : Nat := pack 480 [
  0x0033003200310030002f002e002d002c002b002900280027002600250023002200210020001f001e001d001c001a0010000f000e000d000c000a0001,
  0x004d004c004b004a0049004800470046004500440043004200410040001800080003003a002a003f003e003d003c003b003900380037003600350034,
  0x00770076007500740073007200710070006f006e006d006c006b006a00690068006700660065006400630062006100600053005200510050004f004e,
  0x001900000024001b000b0009000500150007000600040014001300020012001100170016007e007d00580057005600550054007a00790078]

/-- `index_pointer_windows_1255_1` (lib/whatwg/encoding/indexes_pointer.cpp:90), 118 entries. -/
def ptr1Windows1255 : Table := ⟨16, 118, ptr1Windows1255Data⟩

/-- Rows of `index_code_point_windows_1256`. -/
def cpWindows1256Data : Nat := pack 480 [
  0x0201402013020220201d0201c0201902018006af00688006980068600152020390067902030002c60202102020020260201e001920201a0067e020ac,
  0x000af000ae000ad000ac000ab006be000a9000a8000a7000a6000a5000a4000a3000a20060c000a0006ba0200d0200c001530203a0069102122006a9,
  0x00627006260062500624006230062200621006c10061f000be000bd000bc000bb0061b000b9000b8000b7000b6000b5000b4000b3000b2000b1000b0,
  0x006430064200641006400063a006390063800637000d7006360063500634006330063200631006300062f0062e0062d0062c0062b0062a0062900628,
  0x000f7006500064f000f40064e0064d0064c0064b000ef000ee0064a00649000eb000ea000e9000e8000e700648006470064600645000e200644000e0,
  0x006d20200f0200e000fc000fb00652000f900651]

/-- `index_code_point_windows_1256` (lib/whatwg/encoding/indexes_code_point.cpp:34), 128 entries. -/
def cpWindows1256 : Table := ⟨20, 128, cpWindows1256Data⟩

/-- Rows of `index_pointer_windows_1256_0`. -/
def ptr0Windows1256Data : Nat := pack 480 [
  0x000b9000b8000b7000b6000b5000b4000b3000b2000b1000b0000af000ae000ad000ac000ab000a9000a8000a7000a6000a5000a4000a3000a2000a0,
  0x0060c002c6001920015300152000fc000fb000f9000f7000f4000ef000ee000eb000ea000e9000e8000e7000e2000e0000d7000be000bd000bc000bb,
  0x006360063500634006330063200631006300062f0062e0062d0062c0062b0062a0062900628006270062600625006240062300622006210061f0061b,
  0x006790065200651006500064f0064e0064d0064c0064b0064a006490064800647006460064500644006430064200641006400063a006390063800637,
  0x020200201e0201d0201c0201a020190201802014020130200f0200e0200d0200c006d2006c1006be006ba006af006a9006980069100688006860067e,
  0x02122020ac0203a0203902030020260202202021]

/-- `index_pointer_windows_1256_0` (lib/whatwg/encoding/indexes_pointer.cpp:92), 128 entries. -/
def ptr0Windows1256 : Table := ⟨20, 128, ptr0Windows1256Data⟩

/-- Rows of `index_pointer_windows_1256_1`. -/
def ptr1Windows1256Data : Nat := pack 480 [
  0x00600057003e003d003c003b0039003800370036003500340033003200310030002f002e002d002c002b002900280027002600250024002300220020,
  0x004a004900480047004600450044004300420041003f003a002100080003001c000c007c007b007900770074006f006e006b006a0069006800670062,
  0x007200710070006d006c00660065006400630061005f005e005d005c005b005a005900580056005500540053005200510050004f004e004d004c004b,
  0x000600040014001300020012001100170016007e007d001e001d007f0040002a001f00100018000e001a000f000d0001000a007a0078007600750073,
  0x00190000001b000b0009000500150007]

/-- `index_pointer_windows_1256_1` (lib/whatwg/encoding/indexes_pointer.cpp:93), 128 entries. -/
def ptr1Windows1256 : Table := ⟨16, 128, ptr1Windows1256Data⟩

/-- Rows of `index_code_point_windows_1257`. -/
def cpWindows1257Data : Nat := pack 480 [
  0x0201402013020220201d0201c020190201800090000b8002c7000a80008c020390008a02030000880202102020020260201e000830201a00081020ac,
  0x000c6000ae000ad000ac000ab00156000a9000d8000a7000a6fffff000a4000a3000a2fffff000a00009f002db000af0009c0203a0009a0212200098,
  0x0011200118000c5000c400106001000012e00104000e6000be000bd000bc000bb00157000b9000f8000b7000b6000b5000b4000b3000b2000b1000b0,
  0x000df0017d0017b000dc0016a0015a0014100172000d7000d6000d50014c000d30014500143001600013b0012a00136001220011600179000c90010c,
  0x000f7000f6000f50014d000f30014600144001610013c0012b0013700123001170017a000e90010d0011300119000e5000e400107001010012f00105,
  0x002d90017e0017c000fc0016b0015b0014200173]

/-- `index_code_point_windows_1257` (lib/whatwg/encoding/indexes_code_point.cpp:35), 128 entries. -/
def cpWindows1257 : Table := ⟨20, 128, cpWindows1257Data⟩

/-- Rows of `index_pointer_windows_1257_0`. -/
def ptr0Windows1257Data : Nat := pack 480 [
  0x000b0000af000ae000ad000ac000ab000a9000a8000a7000a6000a4000a3000a2000a00009f0009c0009a00098000900008c0008a000880008300081,
  0x000df000dc000d8000d7000d6000d5000d3000c9000c6000c5000c4000be000bd000bc000bb000b9000b8000b7000b6000b5000b4000b3000b2000b1,
  0x0011900118001170011600113001120010d0010c001070010600105001040010100100000fc000f8000f7000f6000f5000f3000e9000e6000e5000e4,
  0x00161001600015b0015a00157001560014d0014c0014600145001440014300142001410013c0013b00137001360012f0012e0012b0012a0012300122,
  0x0202202021020200201e0201d0201c0201a02019020180201402013002db002d9002c70017e0017d0017c0017b0017a0017900173001720016b0016a,
  0x02122020ac0203a020390203002026]

/-- `index_pointer_windows_1257_0` (lib/whatwg/encoding/indexes_pointer.cpp:95), 126 entries. -/
def ptr0Windows1257 : Table := ⟨20, 126, ptr0Windows1257Data⟩

/-- Rows of `index_pointer_windows_1257_1`. -/
def ptr1Windows1257Data : Nat := pack 480 [
  0x0036003500340033003200310030001d002e002d002c002b0029000d002700260024002300220020001f001c001a00180010000c000a000800030001,
  0x00620042007c003800770076007500730069003f00650064005f005c002800570056005500530049002f00450044003e003d003c003b0039000f0037,
  0x00740054007200520071005100790059006f004f006d004d00610041006e004e006c004c00660046006b004b00670047006800480063004300600040,
  0x00150007000600040014001300020012001100170016001e007f000e007e005e007d005d006a004a00780058007b005b00700050007a005a003a002a,
  0x00190000001b000b00090005]

/-- `index_pointer_windows_1257_1` (lib/whatwg/encoding/indexes_pointer.cpp:96), 126 entries. -/
def ptr1Windows1257 : Table := ⟨16, 126, ptr1Windows1257Data⟩

/-- Rows of `index_code_point_windows_1258`. -/
def cpWindows1258Data : Nat := pack 480 [
  0x0201402013020220201d0201c0201902018000900008f0008e0008d00152020390008a02030002c60202102020020260201e001920201a00081020ac,
  0x000af000ae000ad000ac000ab000aa000a9000a8000a7000a6000a5000a4000a3000a2000a1000a0001780009e0009d001530203a0009a02122002dc,
  0x000c7000c6000c5000c400102000c2000c1000c0000bf000be000bd000bc000bb000ba000b9000b8000b7000b6000b5000b4000b3000b2000b1000b0,
  0x000df00303001af000dc000db000da000d9000d8000d7000d6001a0000d4000d300309000d100110000cf000ce000cd00300000cb000ca000c9000c8,
  0x000f7000f6001a1000f4000f300323000f100111000ef000ee000ed00301000eb000ea000e9000e8000e7000e6000e5000e400103000e2000e1000e0,
  0x000ff020ab001b0000fc000fb000fa000f9000f8]

/-- `index_code_point_windows_1258` (lib/whatwg/encoding/indexes_code_point.cpp:36), 128 entries. -/
def cpWindows1258 : Table := ⟨20, 128, cpWindows1258Data⟩

/-- Rows of `index_pointer_windows_1258_0`. -/
def ptr0Windows1258Data : Nat := pack 480 [
  0x000ae000ad000ac000ab000aa000a9000a8000a7000a6000a5000a4000a3000a2000a1000a00009e0009d0009a000900008f0008e0008d0008a00081,
  0x000c7000c6000c5000c4000c2000c1000c0000bf000be000bd000bc000bb000ba000b9000b8000b7000b6000b5000b4000b3000b2000b1000b0000af,
  0x000e6000e5000e4000e2000e1000e0000df000dc000db000da000d9000d8000d7000d6000d4000d3000d1000cf000ce000cd000cb000ca000c9000c8,
  0x0015200111001100010300102000ff000fc000fb000fa000f9000f8000f7000f6000f4000f3000f1000ef000ee000ed000eb000ea000e9000e8000e7,
  0x02021020200201e0201d0201c0201a020190201802014020130032300309003030030100300002dc002c6001b0001af001a1001a0001920017800153,
  0x02122020ac020ab0203a02039020300202602022]

/-- `index_pointer_windows_1258_0` (lib/whatwg/encoding/indexes_pointer.cpp:98), 128 entries. -/
def ptr0Windows1258 : Table := ⟨20, 128, ptr0Windows1258Data⟩

/-- Rows of `index_pointer_windows_1258_1`. -/
def ptr1Windows1258Data : Nat := pack 480 [
  0x00340033003200310030002f002e002d002c002b002a0029002800270026002500240023002200210020001e001d001a0010000f000e000d000a0001,
  0x00570056005400530051004f004e004d004b004a004900480047004600450044004200410040003f003e003d003c003b003a00390038003700360035,
  0x007c007b007a0079007800770076007400730071006f006e006d006b006a006900680067006600650064006200610060005f005c005b005a00590058,
  0x000700060004001400130002001200110017001600720052005e006c004c00180008007d005d007500550003001f001c000c0070005000630043007f,
  0x00190000007e001b000b000900050015]

/-- `index_pointer_windows_1258_1` (lib/whatwg/encoding/indexes_pointer.cpp:99), 128 entries. -/
def ptr1Windows1258 : Table := ⟨16, 128, ptr1Windows1258Data⟩

/-- Rows of `index_code_point_x_mac_cyrillic`. -/
def cpXMacCyrillicData : Nat := pack 480 [
  0x00427004260042500424004230042200421004200041f0041e0041d0041c0041b0041a00419004180041700416004150041400413004120041100410,
  0x004530040302260004520040202122000a9000ae00406000b602022000a7000a300490000b0020200042f0042e0042d0042c0042b0042a0042900428,
  0x000ab0220602248001920221a000ac00405004580045a0040a0045900409004570040700454004040040800491000b5004560226502264000b10221e,
  0x0044f0045100401021160045f0040f0045e0040e0201e000f702019020180201d0201c0201402013004550045c0040c0045b0040b000a002026000bb,
  0x00447004460044500444004430044200441004400043f0043e0043d0043c0043b0043a00439004380043700436004350043400433004320043100430,
  0x020ac0044e0044d0044c0044b0044a0044900448]

/-- `index_code_point_x_mac_cyrillic` (lib/whatwg/encoding/indexes_code_point.cpp:37), 128 entries. -/
def cpXMacCyrillic : Table := ⟨20, 128, cpXMacCyrillicData⟩

/-- Rows of `index_pointer_x_mac_cyrillic_0`. -/
def ptr0XMacCyrillicData : Nat := pack 480 [
  0x0040a00409004080040700406004050040400403004020040100192000f7000bb000b6000b5000b1000b0000ae000ac000ab000a9000a7000a3000a0,
  0x004230042200421004200041f0041e0041d0041c0041b0041a004190041800417004160041500414004130041200411004100040f0040e0040c0040b,
  0x0043b0043a004390043800437004360043500434004330043200431004300042f0042e0042d0042c0042b0042a004290042800427004260042500424,
  0x004540045300452004510044f0044e0044d0044c0044b0044a004490044800447004460044500444004430044200441004400043f0043e0043d0043c,
  0x02116020ac0202602022020200201e0201d0201c0201902018020140201300491004900045f0045e0045c0045b0045a0045900458004570045600455,
  0x022650226402260022480221e0221a0220602122]

/-- `index_pointer_x_mac_cyrillic_0` (lib/whatwg/encoding/indexes_pointer.cpp:101), 128 entries. -/
def ptr0XMacCyrillic : Table := ⟨20, 128, ptr0XMacCyrillicData⟩

/-- Rows of `index_pointer_x_mac_cyrillic_1`. -/
def ptr1XMacCyrillicData : Nat := pack 480 [
  0x00010000005a0058004d004b003e003c0037003a002700410038002e002b005d0044005600480026003500310021002800420047002900240023004a,
  0x001f001e001d001c001b001a0019001800170016001500140013001200110010000f000e000d000c000b000a00090008000700060005000400030002,
  0x007d007c007b007a0079007800770076007500740073007200710070006f006e006d006c006b006a0069006800670066006500640063006200610060,
  0x005c007f004900250020005700530052005500540051005000360022005b0059004e004c003f003d0040003b0034004f0039002f002c005e005f007e,
  0x00330032002d0045003000430046002a]

/-- `index_pointer_x_mac_cyrillic_1` (lib/whatwg/encoding/indexes_pointer.cpp:102), 128 entries. -/
def ptr1XMacCyrillic : Table := ⟨16, 128, ptr1XMacCyrillicData⟩

end Verif.Model.Tables
