import Verif.Model.Table
/-
The tables of named character references, lib/whatwg/html/parsing/atom_tbl.cpp:1214-4757.
Transcribed by a script; see Verif.Model.Table for the packing.
-/
namespace Verif.Model.Tables.NamedRef
open Verif.Model.Table

set_option maxRecDepth 100000

def baseData : Nat := pack 480 [
  0x101801001010160101501001010130101201001010100100f010010100d0100c010010100a0100901357010070100608fe2010040100301002018b7,
  0x1030010060102e0102d010010102b0102a010020102801027010030102501024010040102201021010020101f0101e010040101c0101b0133301019,
  0x100b0104701046010040106301044010420100a0104000ffc00ffe010000103f010020103a010390100301037010360100701034010330100301031,
  0x107e01060010100105d0105c010320105a0105900ff80101c0105f010560105400ff9010170105101050010640104e0104d00ffb010100104a01049,
  0x10200100e010110103b0102c0108401072010480104100ff701033010350102f0109c0106d010260101d01014010620100b013d4010690100201061,
  0x10a10109000ff5010520108c0108b0108a010260108801087010860101300ff00105e01023010810108001048010460107d0107c010450103201023,
  0x1041010a7010a6010a50103b010a3010a2010bc00ffa00ff1010630109d0105b00ff30105f010990109801097010310109501094010930101e01091,
  0x10c0010c40104c010bd010bf01054010ba010b9010b80104e010b6010b500feb010b401078010b1010b000fef01073010ad0106a010ac01053010aa,
  0x10d8010d701064010d5010d400fe901097010d1010d000fea0107101093010cc010f2010ca0104f01057010c7010c6010cb010df00fed01087010c1,
  0x10f000fe8010b3010ed010ec010cf010eb01084010e8010e701129010e5010e60106d010e401071010e0010e201055010de010dc0107a0108e010da,
  0x10b801112011060110500fe6010c80110201101011000109a010fe010fd010fc01085010fa010f9010f80109601107010f501134010f6010ce010f1,
  0x11200110c00fe4010e20111c0111b0111a010ac01118011170111600fff0109c011130111201111011060109d0110e0110d0111f0110f0110a01174,
  0x113801137010ce01135010f400fe2010f701131011300112f010cd0112d0112c0112b010c20110b0114300ffd00fe3010ea011240112301122010b9,
  0xfdd01114011500114d010e90114b0114e011490114a0114701148010f501144010e5011420114100fe1010f3011040113d0113c0113b010d901139,
  0x112d0116701166011800114800ff601165010ef01160011630115e011c30115f0115e0115a011590116a00fe00111b011550115401153010e001151,
  0xfd9011440117e0117d0117c011170118d0117a0117800fdb0113b0117501109011570117900fde011350116f0116e0116d011050116b0115b00fdf,
  0xff200fd60115b0119501129011930119400fd7011920126b01203011550118c00ff40118b011890112401187011860118500fd8011080111601181,
  0x11b0011af0113f01191011ad00fee0116401257011a801138011ab011a501138011a3011a6011a101278011a2012100119d0119c0124b0119a01199,
  0x11c8011f00115c011d7011c40115d00fd40118600fec011bc011c0011bd0119e00fd50117f011b9011b8011b701151011b5011b4011b301142011b1,
  0x11e000fd0011a3011dd011dc011db01176011d9011d8011d701163011d5011d400fd101197011d1011d0011cf01169011cd011cc00fd20118f011c9,
  0x118400fcb011bb011f5011f400fcd011b7011f7011be011ef011ee00fce00fe7011b1011ea011f1011e800fcf011ab011e5011e4011e9011a8011e1,
  0x11fa01201011f3011ed011e7011e2011e300fda00fc8011cc00fca011df011ca012030120200fe501206011ff00fc9011c2011fc011fb00fcc01211,
  0x1228012270122f011be012240122300fc5011e6012200121f00fc6011e20121c0121b0121a011b7012180121700fc7011da0121400fd301213011fe,
  0x1240011cd0123e011c70123d0123b011c8012390123801237011d501235012340122500fc3011f6012300122600fc4011f20122c0122b0122a011c1,
  0x125b012a8012560125500fc101218012330121601263012520124e0124d011de01222011c600fdc0124f0121e00fc2011d3011cb0120a0124201241,
  0x12700126f01272012070126c0118f012020126900fc00122c0126801265011f4012840126201261011fd012660125e0125d011ee0125f0127f0125a,
  0x128c01287012860121f0121c01283012820119f0129700fbe012430127d0127c0127b0121401279011a000fbf0123b012750118e012740123501271,
  0x123d0129f0129e00fba012610129b0129a00fbb0125d012a000fbc0125a01294012930129201294012900128f0128e0121f0121f0128b0128a01289,
  0x12cb01243012b6012b5012b40126d012b2012b1012b7012b000fb801272012ac012ab012aa01236012a8012a700fb90126a012a4012a3012a2012bc,
  0x12d201266012d0012cd01263012e4012ce012c9012c801253012c6012ca012c5012c30125f012c4012c1012bf012be0124e0124f012bb012ba012b9,
  0x12e8012e7012e60127600fbd00fb7012a7012e1012e0012df01270012dd012dc012f701273012d9012d8012d7012db01266012d4012d301268012d1,
  0x12c501301012ff012fd012fc00fb4012bf012f9012f800fb5012bb012f5012f4012f301281012f100fb6012f001259012b4012ec012eb012ea01271,
  0x12a60131a012a40131501314013320129d012ce013100130f0129900fb0012d10130b012580130a013080129501306013050131f012bb0130200fb2,
  0x12f5013030132f0132d0132c0133e012bd013290132801327012bf01325013240132a01323012b8013200130400faf012e20131c0131b012ee01296,
  0x133500fac0130b012dd0134401312013450134301340012d6013410133d012cc0133b0133a01339012cb013370133600fad012f9013330131300fae,
  0x13600135f0135e012f1013260135b0135a013590135c0135701356012e7012ec01353013520136501350013540134f012e90134c0134b0134a0134e,
  0x137801377013760130800fa8013380137201348013710136f01309013740136d00faa0132f013690136801367013010136c0136b0136300fab012fe,
  0x13900138f013bc013580138c0138b00fa40134e0138801387013860131901384013830138201314013800137f00fa6013420137c0137b0137a0130d,
  0x13510130e0128101127012540119b0115801104010ef013a90139e0107f0139d010c5010af0107b0132d0104c010380101a01397013930139201322,
  0x1352010d3010a0013bf0138e01058010290100800fa20137c013b6013b5013b40133f013b2013b1013b001341013ae013ad013ac0138a013420137e,
  0x13d8013d7014a50196d013f300fa101397013d1013d0013cf0135a0136401322012fe012af013cd01247011710117701140010c3013c80138d013c2,
  0x13f0013ef013ee01386013ec013eb013ea0137b013e8013e7013e601376013e4013e3013f2013c5013e0013df013de01372013dc013db0146d01409,
  0x1408014070139a014050140401403013990140101400013ff0138b00fb1013fd013fb013fa0141400fb3013f80138901980013f4013f500fa0013b6,
  0x14210141f013b10141d0141c0141b013b101419014180141701420013a40141500f9f013d701411014100140f013a00140d0140c0140b0139b01409,
  0x1439013c6013f6014360143400f9d013f701431014300142f013c10142d0142c013e10142b013e200f9e013ec014260142501424013be01422013c0,
  0x1450013e30144e0144d0144c013d80144a0144901448013dc014460144501464014000144201441014d30145d0143e00f9c014010143b0143a01413,
  0xfa9014820140a014650144400f9b01427014610146001b05020b7014330145f013f30145a0145901458013e4014560145501454013f20145201451,
  0xf99014440147e0147d013d900fa50147c01414014780147701476014100147401443014730149000fa7014180146e013da00f9a014300146a01469,
  0x149801497014320149501494014930142d01491014700147100f98014520148c0148b0148a014250148800fa301487014850141f014830146601468,
  0xf9501474014ae014ad014ac01440014aa014a9014a801435014a6014c3014a400f9601467014a1014a00149f014390149d0149c00f970145f01499,
  0x14c80149b014c7014dc0146c01472014c2014c100f9401484014be014bd014bc01450014ba014b9014b801445014b6014b5014b401451014b2014b1,
  0x14e000f91014a3014dd014c500f920149f014d9014d8014d70145d01508014d5014d400f9301496014d0014cf014ce01466014cc014cb014ca0145b,
  0x14f8015b0014f601483014f4014f300f90014b6014f0014ef014ee0147e014ec014eb014ea014b001474014e7014c4014e6014e4015250151e014e1,
  0x1510014ae0150e0150d01530015590150b015160150900f8f014cb0150501504015030148f0150101500014ff01489014fd014fc014fb01499014f9,
  0x1528014b7015260152e00f8d014e8015220152100f8e014e40151e0151d0151c014b60151a0151901518014a40151601515015140149e0151201511,
  0x14d70153f0153e0153d014c90154400f8c014fe015380153701536014bf01534015330153201520014b80153b0152f0152d0152c014b70152a01529,
  0xf8a0151c015560155501554014de015520155101550014e00154e0154d0154c014dd015860154a015240154800f8b015470150a015430154201541,
  0x15070156f0156e0156d015000156b0156a015690157a014fc015660156501564014ee015620156101560014f00155e0155d0155c014ed0155a01567,
  0x154e015870158000f870154901583014f70158200f88015440157e0157d0157c0151a0150c00f890153d01577015760157501501015730157201571,
  0x15650159f0159e0159d0158d0152e0159a0159901598015320159601595015940153a0152e0154601591015240158f01549014e20155800f860150a,
  0x15b8015b701555015b5015b400f8301577015b1015b9015af015ae01546015ac015ab00f840156e015a8017b001536015a7015a5015a4015a300f85,
  0x15d10156c015ce015cd015cc01559015ca015c000f820158c015c6015c5015c401553015c2015c1015c901567015be015bd0163c015df01623015bb,
  0x15e8015e7015e601576015e4015e3015f00159c015e0015ea00f80015d5015a2015db015da015d901568015d7015d600f8101599015d3015d2015bf,
  0xf7e015c4015fe015fd01601015fc01587015f9015f8015f701581015f5015f4015f301586015f1015fb00f7f015b3015ed015ec01616015eb01575,
  0x162b015b90162100f7d015d90161301612015ef016110159c0160e015e10160d0160b015a50160901608016070159901605016040160301599015e2,
  0x16300162f01617015cd0162c0161800f7c015ee0162801627015c601626015b401623016250162201620015aa0161e0161d0161c015b80161a01619,
  0x15d80164901646015d701647016440164201641015df0163f0163e0163d015d30163b0163a016390164300f7b015fb016350163401633015c001631,
  0x1660015e80165e0165d0165c015ec0165a0165901658015f3016560165501654015ee016520165101650015e30164e0164d0164c015e40164a01672,
  0x167801677016760160901674016730167d00f79016350166f0166e0166d015fc0166b0166a0166900f7a0162c016660166501664015f50166201661,
  0x16900168f00f77016520168c0168b0168a0162401688015bc00f780164a01687016830161d01684016800167f016810160b0167c0167b0167a01604,
  0xf760166c016a6016a5016a40163e016a2016a1016a0016380169e0169d0169c0168e016710163701615015de016370169501694015ba016930162c,
  0x1743016bf016be00f7501681016bb016ba016b901641016b7016b6016b5016450175c016b3016f8016b1016af016b0016ad017640171e016aa016a9,
  0x16d8016d7016d60165b016d4016d3016d201662016d0016cf016eb01697016cc016cb016ca0178c016c80165e01750016c6016c4016c5016c2017a9,
  0x16f0016ef016ee0167c016ec016f100f74016ae016e8016e7016e601680016e4016e3016e20167a016e0016df016de0166f016dc016db016da01674,
  0x1708017070170601693016ce00f73016c70170101700016ff01699016fd016fc016fb01688016f9016f8016f701695016f5016f4016f3017040167d,
  0x1720016ba0171e0171d0171c016af0171a0171901718016b0017160171501714016a5017120171101710016ae0170e0170d016ea016cd0170c016a0,
  0x1738016d2017360173500f71016f8017320173101730016c10172e0172d0172c016b40172a0172901728016b8017260172500f72016e80172201721,
  0x16e80174f0174e017240174d016e40174a0174901748016de017460174500f7001708017420174101740016cb0173e0173d0173c016d50173a01739,
  0x1777016b201745017650176d00f6e0172701761017600175f016f30175d016c30174400f6f0171e01758017570175601734016e1017530175201751,
  0x16ac00f6b017430177d0177c0177b0174601767017790176800f6c0173a0176b017740176c00f6d017350176f017800176e017720173f0176a01769,
  0x179a01724017970179501796017930179201722017900178f017630171f00f6900f6a016ab0174f0178801787017860171a0178401783017820171e,
  0xf6601774017ae017ad017ac01737017aa016c100f670176c017b800f6801769017a3017a2017a10172a0179f0179e0179d017a6017330179b01799,
  0x178d017c70178f017c6017c5017c3016c7017c201920017c40175a017bd017bc017cc01788017b901758017bf01751017b7017b5016c0017b3017b4,
  0x17e0017df0176c017dd00f62017a0017da017d9017d80176a017d6017d5017d401764017d2017d1017e200f6301793017cd017cf00f64017dc00f65,
  0xf61017bc017f6017f5017f40178e017f2017f101891017f001785017ef017ed019140177d017ec017e9017e7017eb017e6017e50176f0177b017e1,
  0x18100180f01822017d70180c0182800f60017ce017d00180801806018050178c0180301802017e8017cb018010178f017ba017fd017fb0180b017bb,
  0x182b0182700f5b017ea0180e0182400f5c017e6018200181f00f5d017e20181c0181b0182e017e1018180181700f5e017da018140181300f5f017d6,
  0x18060183f0183e018480180c018540183b01839018400183a00f58017fa01819018340183200f59017f50182f0181a00f5a017f1018170180d0182a,
  0xf510185a0181c017ed0183100f5700f520183c018160184f0181e0184e00f5301810018260184a00f5600f540180b01845018120184400f5501855,
  0x17fc0186f0186e01837018850186d017fc018690186b00f4e0182b018650186400f4f0185e01827018600185f00f50018220183d018680185c01859,
  0x18a9018880186e01886018840180e0186301882018800187f018120187d018420187c00f4d0183e018780187701876018020187401873018720184c,
  0x18a00189f018390189d0189c0189b0182d0189900f4a01898018960182c0185c01894018920189300f4c018540188e01858018900188d0188a01816,
  0x187e018b7018c400f4801879018b3018b2018b601877018af018ae00f49018b801871018aa018bb018ab00f4b0186b018a5018a4018a30182f018a1,
  0x18d500f4301893018cd018cf018cc018b500f44018cb0188d018d2018c6018b100f4501887018a8018c1018bf00f4601882018bc0188b00f47018b0,
  0x18a701867018e8018e5018b000f3e018a7018be018e1018df018f400f3f018a1018870180a018db018d800f40017f90189b018d4018ec018d3018dd,
  0x19030183600f39018c5018c2018fb01838018d1018fa00f3a01816018bb017fa018ff00f3b018b6018f0018ef00f3c018b200f4200f3d018ca018af,
  0x18b401917019280191600f35018d80191200f410191100f3600f37018d20190c0190b00f38018ce018c7018ad0189101908018d3019000187a01904,
  0x1931018ca018ba0192d0192c01945018df01929018f20192e0192601925018ae0190a018d00192300f34018e4018de018ee0191e0191b0191a018d7,
  0x190f018e7019460192b00f3201908018f70194201948018dc018e40193e0194e0193c00f33018fe0194001937018d10193801935019330193401932,
  0x197e018ee0195f00f2e019210195e0195b019590195a019580192a01957018e4019530195201970019320194f018f30194d019660194c0194a0194b,
  0x196e019770197801975019760197401905019710198200f2f019330196d0196c01973018fd0196b01969018f60196700f3101929019630196201961,
  0x1955019920198f0198d0198e0198c00f2c0194e0191e0198701986019c001952019830198801981019800191200f2d019420197c0197b0197a01910,
  0x19a8019a700f290196a019a4019a30199800f2a019650199f0199e0199d0195d019300199a019990195000f2b0195101943019940195b0199300f27,
  0x19840198500f26019820178e01991019bc019b9019b800f280197b019b50198b019b4019b20194f019b0019af019ae01938019ac019ab019aa01936,
  0x199f015aa019d7019c6014f2014df014c0014a3013d5013d6019a6019d500f2400f2501990019c9019a2019c80198f019c5019c4019c301952019c1,
  0x15a1019f0019ee0197c019ec019eb019ea01984019e801507014d2019e70143f0196f014400193b01915019e4017c9017a5016bd00f23016a8015b3,
  0x1a0801a0701a060199001a0401a0301a2f01a7601a00019ff02b56019fd019fc00f21019bf019f9019f800f2201965019cc0193a017b1019bb019f1,
  0x1a2001a1f0226d01a1d0231601a3301a6101a1901a1801af3021fd01a1501a1400f20019d7019f701a1101a0f01a0e019a801a0c01a0b01a0a01995,
  0x1a3801a3701a5b01a8801a3401a3f01a7b01a3f01a3001a3b00f1f019f201a2c01a2b01a2a019c401a2801a2701a26019b101a2401a2301a22019ac,
  0x1a50019da01a4e01a4d01a4c019e801a4a01a4901a48019d501a4601a4500f1c01a0801a4201a4101a9901a40019da01a3d01ada01a3c01a3a019cb,
  0xf1a01a2c01a6601a6501a64019f300f3001a6201a6001a5f01a71019ee01a5c019fd01a5a01a5900f1b01a1c01a5601a5501a54019e301a5201a51,
  0x1a8001a7f01a7e01a0901a7c00f1e00f1801a3e01a7801a7701a7601a0101a7401a6801a7301a9600f1901a3401a6e01a6d01a6c019fb01a6a01a69,
  0x1a5d01a9701a9a01a2f01a9401a9301a9201a2b01a9001a8f01a8e01a2401a8c01a8b01a8a01a4501a8801a8701a8601a1901a8401a8301a8201a20,
  0x1ab001aaf01a3a01aad01aac01aab01a3c01a3101aa901aa701aa601a4001aa401aa301aa201a2f01aa001a9f01a9e01a3801a9c01a9b01a6000f16,
  0x1ac801ac701ac601a1e00f1d00f1701a8701ac101ac001abf01a7a01abd01abc01abb01a4e01ab901ab801ab701a5501ab501ab401ab301a4901ab1,
  0x1ae001a7a01ade01add01adc01a6f01a0200f1401a9d01ad701ad601ad501a3201a6601a1a01ad201ace01ad000f1501a9201acc01acb01aca01a55,
  0x1af801b3801b1601b9a01af501af400f1301ab601a2e01af001aee01a3501a5801a4401a3601aed01a7501a0101ae701ae501ae401a6a01ae201ae1,
  0x1aa101b0f01b0e01b0d01a9a01b0b01b0a01b2701b0101b8d01b0701b0600f1201ac801b0201b0101b0001a8c01afe01afd01a7001b1a01aa901af9,
  0x1b2801b2a00f1001aea01b2401b2301b2201ab301b2001b1f01b1e01aae01afa01b1c01afc00f1101add01b1701b1601b1501aa601b1301b1201b11,
  0x1b4001ad601b3e01b3d01b5601b3c01ad601b3901b3b00f0f01afb01b3501b3401b3301ac601b3101b3001b2f01ac501b2d01b2c01b4901b2b01ac5,
  0x1b5801ae501b5900f0b01b1901b5301b5201af501b5101aec01b4e01b5001b4d01b4b01ad801b4c00f0d01b0c01b4601b4501b4401ad701b4201b41,
  0x1b7101b6f01b6e01aff01b6c01b2601b6b01b6901aff01b0801b6701b6501b6401b0900f0a01b2601b6001b5f01b0801b5e01af901b5b01b5d01b5a,
  0x1b8801b8701b1901b8501b8400f0801b4701b8101b3701b8001b7e01b0a01af601b7c01b7a01b7901af700f0901b3b01b7501b7401b7301afe01b48,
  0x1ba001b9f01b9e01b8201b9c01b2e01b9b00f0601b5d01b9701b9601b9501b2001b9301b9201b9101b8901b8f01b2101b8e01b5500f0701b4f01b89,
  0x1bee00f0401b7b01bb501bb401bb301b4601bb101bb001baf01b4501bad01bac01c2b01b3801ba901bd201ba800f0501b6a01ba401ba301ba201b2d,
  0x1b9501bcf01bce01bcd01b6b01bcb01bca01bc901b5c01bc701bc601bc501b5801bc301bc201bc101b5701bbf01c2201b4b01bbc01b8301bbb01bbe,
  0x1b7401bab00f0101baa01be401be301be201b6b01be001bdf01bde01b6401bdc01be701bdb01bd901b6401bd701bd601bd501b6401bd301bda00f02,
  0x1c0001bbb01bfe01bfd01bfc01b8901bfa01bf901bb701bf801b9101bf501bf401bf301b7e01bd101ba701bf101bb800f0001bb101beb01bea01be9,
  0x1ba901c0c01c1701c1501c1401baf01c1201c1101c1001b9d01c0e01c0d00efe01bd001c0a01c0901c0801b9301c0601c0501c0401b9401c0201c01,
  0x1c3d01c4b01c0c01c2d01c3001c2c00efc01bee01c2801c3501c2601bc201c2401c2701c2300efd01be501c1f01c1e01c1d01ba801c1b01c1a01c19,
  0x1c4801c4701c4600f0c01c7301bcc01c4301c4101bce01c3f01c4201c3e00efa01c0001c3a01c3901c3801bbe01c3601c4d00f0e00efb01bf701c31,
  0x1c6001bfe01c5e01c5d00ef801c2001c5a01c5901c5801bec01c5601c5501c5401c6d01c5201c5101be701bf001c4f01c7001c4e01c4c00ef901c0e,
  0x1c0301c7701c4a01c7601d3400ef501c2e01c3701c2f00ef601c3301c8500ef701c3001c6a01c6901c6801bfc01c6601c6501c6401bf101c6201c61,
  0xef201c5401c5c01ca701c8e01c8c01c8a01c8901c1601c8b01c8701c8601c1301c8301c8200ef301c4501c7f01c7e01e0601c7c01ca201c7b01c79,
  0x1c3101ca701ca601ca501c3501d7001ca301ca101ca001c2d01c9e01c9d01c9c01c2901c9a01c9901cd601c7401c9601c9501c9401c2e01c9201c91,
  0xef101c8401cbe01cbd01cbc01c4701cba01cb901cb801c5101cb601cb500f0301cb401c9001c4d01cb001caf01cc101c5401cac01c8101cab01ca9,
  0x1cda01cd701c9800ef001c9901cd301cd201cd101c5c01ccf01cce01ccd01c6401ccb01cca01cc901c6101cad01cc701cc501cc401c5a01cc201cae,
  0x1cf001c7d01cee01ced01cec01c8200eff01cf901cea01ce800eef01caa01ce401ce301ce201c6d01ce001cdf01cde01c6a01cdc01cdb01ce701c97,
  0x1ccd01d0701d0601d0501c9c01d0301d0201d0101c8d01cff01cfe01cfd01cf001cfb01c9b01cfa00eee01cbc01cf601cf501cf401c9001cf201cf1,
  0x1d2001d1f01caa01d1d01d1c01d1b01cab01d1901d1801d3201d1601d1501d1401d1301cad01d1101d1001d0f01ca201d0d01d0c01d0b01d2200eed,
  0x1cca01d3701d3601d3501ccb01d3301d3a00eea01cf501d2f01d2801cf800eeb01e0a01da601d2e01d2901d2701d2601cb600eec01d2401ce801d21,
  0x1d5001cda01d4e01d4d01d4c01cdf01d5200ee901d0d01d4701d4601d4501cd101d4301d4201d4101ccb01ce601cd901d3f01cda01d4a01d3c01d39,
  0x1d6801d3101d6701d6501d1601cff01d6201d6101d6001cf201d5e01d5d01d5c01d1700ee801d1e01d5801d5701cf201d5601ce101d5501d5301d51,
  0x1d8001d7f01d1501d7d01d7c01d7b01c7a01d0c01d7801d7700ee501d3a01d7401d7300ee601d3600ef400ee701d3301d6d01d6c01d4901d6b01cf6,
  0x1c7d00ee301d5b01d9501d9401d9301d2e01d9101d9001d8f01d2501d8d01d8c00ee401d4f01d8901d8801d8701d1201d8501d8401d8301d1401d81,
  0x1d4501daf01dae01dc500ee201d7001daa01da901d9801da801d3401da501da401da301d8b01d3901da001d9f01d9e01d3a01d9c01d7601d7201d9b,
  0x1f5501dcb01dc701dc601d8101dc301dc201dc101d5b01dbf01dbe01dbd01d4901dbb01dba01db901d4f01db701db601db501d3d01db301db201db1,
  0x1d6b01ddf01dde01ddd01d6d01ddb01dda01dd901d6401dd701dd601dd501d6601dd301dd201e8501dd101d6001dd001d5e01dce01dcc01dca01f12,
  0x1d9101df701df601df501d8f01df301df201df101d7c01def01dee01ded01d7e01deb01dea01de901d9f01de701de601de501d7201de301de201de1,
  0x1dcd01e0f01e0e01e0d01da701e0b01dad00ee101dcd01e0701e0601e0501d9801e0301e0201e0101d9f01dff01dfe01dfd01d8a01dfb01dfa01df9,
  0x1e2801e2701e5301e0e01e2401e2301e2201da801e2001e1f01e1e01db101e1c01e1b01d2a01e1a01da601e1701e1601e1501d9f01e1301e1201e11,
  0x1e4001e3f01e3e01dec01e3c01e3b01e3a01dd401e3801e3701e3601dc901e3401e3301e3201dcf01e3001e2f01e2e01db801e2c01e2b01e2a01dba,
  0x1e5801e5701e5601de001e5401e2600ee001e1601e5001e4f01e4e01de801e4c01e4b01e4a01dd501e4801e4701e4601dd601e4401e4301e4201dcc,
  0x1e0301e6f01e7001e6e01eb601f1701e6a01e6d01e6900edf01e2b01e6501e6401e6301dfd01e6101e2501e6001e5e01de901e5c01e5b01e5a01dea,
  0x1e8801e1901e8601e9d00edd01e4801e8201e8101e8001e0b01e7e01e7d01e7c01e1201e7a01e7900ede01e3c01e7601e7501e7401e8d01e0001e71,
  0x1e5001ea301e9f00edb01e610204301e9b01e9901e9a01e9801e2801e2501e9401e9501e930205b01ff901e8f01e9201e8e00edc01e5001e8a01e89,
  0x1e5801eb701e9e01eff01eb400ed801e7801e7701eb001eaf00ed901e7201fb301eac01eaa01fba00eda01e6c01fb501e4c01ea601ea401ea201ea1,
  0x1ed001ecf01e6001ecd01ecc00ed501e8f01eb801ec901ea901eb900ed601e8901ec301ec200ed701e8501ebf01ebe01ebd01e5b01ebb01eba01ec7,
  0x1ee801e7301ee601ee501eae01ee401e7401ee101ee001edf01e7901edd01edc01eed01e7f01ed901ed801ed701e7101ed501ed400ed401e9701ed1,
  0x1ed501f5001efe01efd01ed300ed201ec101ebf01eda01ef801ecb01ef601ef401e8001ef201ef101ef001e8a01eee01edb00ed301eb001eea01ee9,
  0x1f1801f1701f3001ee201f7b01f1401f1300ed001ed501f0f01f0e01f0d01e9801f0b01f0a01f0901e9901f0701f0600ed101ec901f0301f0201f3d,
  0x1f3100ecf01f0501ef301f2c01f2b01f2a01eb501f2801f2701f2601eb701f2401f2301f2201ebc01f2001f1f01f1e01ea801f1c01f1b01f1a01ea7,
  0x1f0d01f4701f4601f4501ed001f4301f4201f4101ed201f0001f3f01f0100ece01f0001f3a01f3901f3801ec301f3601f3501f3401ec501f4a01f32,
  0x1f6001f5f01f5e01eef01f5c01f5b01f5a01f1001f5801f2f01f5701f5501ee201f5301f5201f5101edb01f4f01f4e01f4d01f1501edd01f1600ecd,
  0x1f7801f7701f7601f0901f7401f7301f7201f1001f7001f6f01f6e01efb01f6c01f6b01f6a01f0201f6801f6701f6601f0001f6401f6301f6201eed,
  0x1f9001f2001f8e01f8d00eca01f5001f8a01f8901efc01f9201eb301e6b01e6c00ecb01f4701f8101f8001f5601f9a01f7e01f3301f7c00ecc01f3e,
  0x1fa801fa701f7d01fa601f2f01fa301fa201fa101f3c01f9f01f9e01f9d01f2d01f9b01f7f00ec901f5d01f9701f9601f9501f3001f7c01f9301f91,
  0x1f8501fbf01fbe01fbd01f4a01fbb01fcb01f8600ec501f8801eab00ec701f7901fb900ec801f7601fb001faf01fae01f3901fac01fab01faa01f46,
  0x1fd801fd901f7201fd501fd601fd301fd401f5f01fd001fcf01fce01fd101f5e01f7a01fb801f5801fc801fc701f1101fc601dc801f8c01dc900ec3,
  0x1ea801ff001fee01fed01f8901feb01fea01fe901f7901fe701fe601fe501f7801fe301fe201fe101f9d01fdf01fde01fdd01f6a01fdb01fe101fda,
  0x2008020070200601fc202004020030200201f9c0200001fff01ffe01f8a01ffc01ffb01ffa01f9001ff801ff701ff601f7e01ff401ff301ff201f86,
  0x20200201f0201e01fab0201c0201b0201a01fa402018020170201601fa602014020130201201f9d020100200f0200e01f9f0200c0200b0200a01f9a,
  0x2038020370203601fc302034020330203201fca020300202f0202e01fc80202c0202b0202a01fb502028020270202601fb702024020230202201fd8,
  0x20160204f020500204e0204c01fdb0204a01fd902049020880202402045020480204400ec202006020400203f0203e01fd10203c0203b0203a01fd8,
  0x20690206700ebf0202a02064020630206201fee020600205f0205e01fea0205c01e910206b00ec00201d0205702056020550207f0205900ec102053,
  0x204902080020eb0207d00ebe02040020f50207a02078020790207702003020760211702074020db020700206f0206e0207101ffd0206c0200701e90,
  0x208d00ebb0205b020950209400ebc020570202c02090020910208e0208f02098020350208c0208a020470201a0208600ebd02085020830201e02081,
  0x20b0020af020ae0204c020ac020ab020d6021b6020a8020a70208b00eb802069020a3020a2020a100eb9020640209e0209d00eba02060020460209a,
  0x205b020c70209c020c602252021ee020c20208d020c1020c0020be02093020cb0205d020ba00ec4020b9020b700ec602044020b4020b3020b20203f,
  0x20a5020df020de020dd0206a020db020da020e202071020d7020ec020d502235020d302064020d1020bb00eb6020d002093020cc020cd020bd00eb7,
  0x20f8020f702084020f5020f402102020f30207f020f0020ef020ee0208c020800211100eb4020ae020e8020e7020e6020d802082020e3020d900eb5,
  0x20a00210f0210e021770210d020aa0210a0216a0210901e8402107020a20210402103021080210101c2100eb2020c3020fd020fc00eb3020bf020f9,
  0x212801dac020b70212501d09021240212201c6c01c340207201bb901b8c01b040145e020c0019fe0211900eb100eaf020da02114021130213102112,
  0x21400213f020ce0213d0213c00ead020ff021390213802137020c6021350213402133020d100eb0020fb00eae020f3020520212d0206601fb20212b,
  0x207c0211f021560215502154020e1021520215100eab021140214e0214d0214c020d70214a02149021480213b020d8021450214400eac0210702141,
  0x21700216f0221c0216e0216d020fa0216a0215b02106021690216602150020f30216302162021670216000ea9021230215d0215c00eaa02143020ea,
  0x21880219802127021850218402183021cc02111021800217f021aa021440217c0217b0217a02100021780218100ea70213a021740217300ea802136,
  0x21a00213c0219e0219d0219c0218602126021990218700ea60215b0219502194021930212f02191021900218f021290218d0218c0218b0211802189,
  0x2153021b7021b600ea402179021b3021b2021b10214b021af021ae021ad02147021ab0217e00ea50216d021a7021a6021a50217202141021a2021a1,
  0x21d0021cf021ce021680216100ea30218f021c9021c8021c702161021c5021c4021c30215b021c1021c0021bf0215a021bd021b50217d021bc021b9,
  0x2176021e7021e6021e502172021e3021e2021d7021e10217e021de02176021dd021db02175021d9021d80210c00ea20219a021d4021d3021d202163,
  0x218c021ff021fe021fd02196021fb021fa021f902193021f7021f60220602199021f3021f2021f102179021ef021ee021ed0217d021eb021ea021e9,
  0x22180221702216021a1022140221302212021a9022100220f0220e021a6021f40220c0220a022090219f02207021f500ea0021c9022030220202201,
  0x2230021cb022240215f0222e0222b0222a02100021c402073022270222500e9e020d4021e802221022200221f021b90221d020a9020aa00e9f021de,
  0x2248021d302246022490224402245021d50224102242022400223e021dc0223c021d40223b02239021cc022370223a0223600e9d021f80223202231,
  0x21eb01a1700e9b022220225c0225b0225a021e5020c3022580225602255021e602253020c400e9c022150224f0224e0224d021d80225f0224b0224a,
  0x2278022340227b020bf02275020a60207e0204201e8c022b70227801e6700e9a0223001c740226a0226801c3c01c2a0226701ba601b9901af201a16,
  0x22640228f0228e022bf02b330228b0228a00e990224d022870228602285022120228302282022810221b0227f0227e0227d0221502c040302f02279,
  0x2243022a7022aa00e9802269022a3022a2022a10222e0229f0229e0229d0223702bbd0223702299022980229b02296022950222d0229302292022a6,
  0x22c0022de00e9602282022bc022bb022ba02247022b8022c100e970227a022b4022b3022b202249022b0022af022ae02239022ac022cc022ab022a9,
  0x22d4022a5022d8022d500e9400ea10229802290022d1022cf022ce0225b0229100e950228f022c9022c8022c702254022c5022c4022c3022e002250,
  0xe91022b4022ee022ed022b60226e00e92022ae022e8022e7022e60226f022e4022e3022e20227902273022f100e93022a2022dc022db022da02271,
  0x22f300e90022cb0230502304023030228b0230102300022ff0228f022fd022fc022fb02288022f9022f8022f702295022f5022f4023090229c02310,
  0x2320022ad0231e0231d0233f022dd02348022ec023190231a00e8f022da0231402313022cc0231102312022ac0230e0230d0230c022aa0230a022f2,
  0x23380233702336022c6023340233302332022bf023300232f0232e0234c00e8e022f00232a0232902328022b9023260232502324022b40232202321,
  0x239f023b3023600234d023500234b00e8a0230e0236400e8b023420230b023440234300e8c02306023400231c00e8d023020233c0233b0233a022cb,
  0x232d0233702367023660236502363022f002361023600235f022f90235d0235c0235b022f302359023580231b0236a0230202354023530237702351,
  0x23800231e023710237e0237c0237b02308023790238d02378023760235502301023730237200e87023350236f0236e0236d022fa0236b0235700e88,
  0x239802397023310239502394023930231f02391023900238f0231a00e8900e86023500238a0238902388023230238602385023840231b0238202381,
  0x2375023af023ae023ad0234b023ab023c6023aa00e820236c023a6023a5023a400e84023c102367023a000e85023630239d0239c0239b0232902399,
  0x234f023c8023de023c5023f302389023c2023510235900e8002383023bd023bc023bb02359023b9023b8023bf023b702341023b402352023b600e81,
  0x23e10236c023f600e7f023a1023db023da023d902362023d7023d6023d50235b023d3023d2023d10235c023cf023b10234e023ce023ee023cb02358,
  0x2397023f700e7c023ba023f4023c400e7d023b6023f0023ef0240a00e7e023b1023eb023ea023e902374023e7023e6023e50237c023e3023e2023a8,
  0x24250250402410024a20239b0240c0240b0240902408023a602406024050241c00e7b023c70240102400023ff0238c02403023c3023fd023fa023f9,
  0x24c30245f0242602441024bf00e7902423023b4024200241f024ff024e5023e70241b024180241a00e7a023dc024160241502414023a70241202411,
  0x2440023de0243e0243d0243c023d80243a0243902438023ce024360243502434023bf024320243102430023c60242e0242d0242c023b90242a02429,
  0x24580245702456023e0024540245302452023ee00e83024500244e02463024680244b0258f0244a024480244902446023db023e2024440244302442,
  0x246b00e77024330246d0246c02471023fb02469024680246702495023f7024640246500e7802426024600245f0245e023f80245c0245b0245a023e5,
  0x248802412024860248502484024200248202481024800243e0247e0247d0247c024160247a02479024780240b02476024750247402411024720246a,
  0x242a0249f0249e0249d0243b024410249b024990249a02498024240249700e76024580249202491024900242a0248e0248d0248c024170248a02489,
  0x2453024b7024b6024b502450024b3024b2024b10246202444024ae0244c024ad024ab0244d00e750246d024a7024a6024a50243f024a3024a2024a1,
  0x24d00246b024ce02427024cd024cb0245c024c9024c8024c7024de02457024c40242800e7302486024c0024c500e740249402482024bb024ba024b9,
  0xe7102598024e6024ac024e50246a024e2024e1024e00247c024e4024dd024dc02477024da024d9024d802469024d6024d500e7202498024d2024d1,
  0x25000250200e6f024c2024fc024fb024fa00e70024bd024f7024d4024f6024f40247f024f2024f1024f002486024ee024ed024ec02476024ea024e9,
  0x2518024a9025160251502514024ae0251202511025100249d0250e0250d0250c024a60250a0240e0250902507024a0025050240f0253200e6e024c6,
  0x24f50252f0252e0252d024e80252b0252a02529024bc025270252602525024c3025230252202521024e8024b70251e0251d0251c024a70251a02519,
  0x25480241e00e6c0250a025440254302542024e0025400253f0253e024d00253c0253b0253a024cc024de02538025370253602534024d20253500e6d,
  0x2560024fa0255e0255d025520255c024f602531025590255700e6a0251a025540255300e6b02516025500254f0254e024fe024df0241d0254b02549,
  0x25780251202576025750257402506025720257102570025060256e0256d0256c024f70256a0256902568024f9025660256500e69025280256202561,
  0x25170259400e66025520258c0258b025800258a025100258702586025850255602516025820258100e67025440257e0257d0257c025080257a02579,
  0x25a8025a702534025a5025a4025b402551025a1025a00259f025b60253b0259c0259b00e640255e025640259d00e65025ab0255a025930259202591,
  0x2560025bf025be025c2025bd0254f025ba025b9025dc028690254d025b50256f00e6302577025b3025b0025b1025e6025ae02833025ac0253c025a9,
  0x25d8025d7025d600e6102599025eb025d3025d1025d00255d025ce025cd025d200e620258f025c9025c8025c702556025c5025a2025c4025cc025a3,
  0x2585025ef025ee02ab802a54025fc026aa02601025e7025e7025e900e5f025a9025e3025f8025e2025e0025ea02579025dd025e1025de00e600259e,
  0x259402ae1026070260502604025940260202594026170262302600025fd025ff02b0602aa602aa6025fb025f9025fe02595025f4025f30261b025f2,
  0x26200261f0261e025a9026380261c0261a02619025a9026170261600e5b025d90261302612026110259f0260f0260e00e5c025d10260b0260a02609,
  0xe5d00e59025fb026350263402633025c602631026300262f025cd025f5025e80262d0262a02629025b3026270262602625025b300e5e00e5a025e6,
  0x26500264f025e20264d0264c00e580260f026490264802647025d3026450264402643025cd02641026400263f02615025d00263c0263b0263a025d0,
  0x2607026670266602665025ef026630260d00e68026620265f025ed0265d0265c00e570261f026590265802657025e3026550265402653025dd02651,
  0x26820267f02612026800267d0267b0267a0267c00e560263c0267602675026740260e02672026710265b02670025fc0264b0266d0266b025f10266a,
  0x26330269702696026950261d0269302692026910261e0268f0268e0268d0262b0268b0268a02689026260268702686026850261f02683028d602613,
  0x26b002836026ae026af026ac02649026ad00e550266d026a7026a6026a50263f026a3026a2026a1026390269f0269e0269d026380269b0269a02699,
  0x26c8026c7026c602651026c4026c3026c202653026c0026bf026be0264e026bc026bb026f802833026b8026b7026b602650026b4026b3026b202645,
  0x26e0026df026de02669026dc026db026da0266b026d8026d7026d60268c026d4026d3026d20265f026d0026cf026ce02658026cc026cb026ca0265a,
  0x2722026f700e54026ba026f4026f3026f202685026f0026ef026ee0268c026ec026eb026ea02677026e8026e7026e60267e026e4026e3026e20267c,
  0x27100269d0270e0270d0270c026ca0270a0270902708026fe0269902705026ff00e53026c70270102700027040268f026fd026fc026fb0268b026f9,
  0x2728026c102726027250277a02714027290272100e52026e40271e0271d0271c026a40271a0271902718026a8027160271502714026a10271202711,
  0x26c90273f0273e0273d026cd0273b0273a02739026c6027370273602735026c20273302732027460272d0272f0272e0272d026b80272b027970272a,
  0x27580276f0275702755026e0027530275202751026e80274f0274e0274d026e50274b0274a02749026df027470275600e5102709027430274202741,
  0x270b0273100e50027320276c0276b0276a026f2027680276702766026f6027640276302762026ef027600275f0275e026eb0275c0275b0275a02718,
  0x27d60278902786027850272302784027450271b02730027800277e0277d0270e0277b0272400e4f0273d0277702776027750270f027730277202771,
  0x27a00272d0279e0279d0279c027290279a02799027ad0276b0279602795027940271f027920279102790027290278e0278d0278c027260278a02789,
  0x27b80274f027b6027b5027b40274c027b2027b1027b002746027ae0279800e4e02770027aa027a9027a802730027a6027a5027a402734027a2027a1,
  0x2759027cf027ce027cd0275d027cb027ca027c902756027c7027c6027c502752027c3027c2027c10277f027bf02797027be027bc02747027ba027b9,
  0x27e8027e7027e602771027e4027e3027e202779027e0027df027de0277602787027dc027da027d90276f027d70278800e4d02799027d3027d2027d1,
  0x2807027ff00e4c027c2027fc027fb027fa02782027f8027f7027f602786027f4027f3027f20277f027f0027ef027ee0277b027ec027eb027ea027a8,
  0x281802817027a4028150281402828027e602811028100280f028350279a0280c0280b0280a027a10279d0280802806028050279d028030280202801,
  0x28300282f027c90282d0282c0282b027c5028290281300e4b027eb028250282402823027ab02821028200281f027af0281d0281c0281b027a802819,
  0x27d90284702878028460284402845027d102841028400283f027cc027dd0283d028120283b028520281002837028360283c0283400e4a027f702831,
  0x28600285f0285e027ef0285c0285b0285a027e202858028570285602838027e6028530283900e49028150284f0284e0284d027d50284b0284a02849,
  0x26b9026ba00e480283a028740287302872027fa028700286f0286e027fe0286c0286b0286a027f7028680286702866027f302864028630286202820,
  0x28900288f0282d0288d0288c0288b02833027fe02827028870272002886028840281a0288202881026f6028800280a0287d0287c0287b0280802879,
  0x25ad028a9028a6028a5025af00e4702867028a1028a00289f0282c0289d0289c0289b02839028990289802897028540289502894028930282602891,
  0x28f3028b7028be028bd028bc02844028ba028b9028b802848028b6028b5028b402841028b2028b1028b00283d028ae028ad028cb026a902a42025e5,
  0x28d8028d7025b800e4502899028d3028d2028d102859028cf028ce028cd0291e0285d028ca028c9028c802855028c6028c5028c402851028c2028c1,
  0x28f0028ef028ee02876028ec028eb028ea0287a028e8028e7028e602873028e4028e3028e2026780286f025f7025da028df028dc02931025b7028f9,
  0x290802907028c502905029040290302892029010290000e43028c3028fd028fc028fb028bf02888028f8028f7028f602894028f400e4600e44028b6,
  0x2920028ad0293c0291d00e42028e00291a0291902918028a0029160291502914028a40291202911029100289d0290e028ff0290d0290b0289802909,
  0x28c10293702936029350295b028c5029320293300e41028f40292e0292d0292c028c60292a0292902928028b1029260292502924028be0292202921,
  0x29500294f0294e028de0294c0294b0294a028d7029480294702946028d3029440294302942028e0029400293f0293e02939028cf0293b0293a02939,
  0x296802967028f602965029640296302930028f0029600295f028da0295e028fb028db00e400291e029580295702956028e2029540295302952028da,
  0x29800297f029180297d0297c0297b029150297902978029880291b0297502974029730290402971029700296f028ff0296d0296c0296b028fb02969,
  0x2998029230299602995029940292b02992029910299002928029760298e0298c0298b02921029890297700e3f0294b0298502984029830290e02981,
  0x29b002946029ae029ad029da029ac029aa029a902953029a802932029a5029a4029a30293c029a1029a00299f029a70299d00e3e029600299a02999,
  0x2965029c7029c6029c50295f029c3029c2029c10296a029bf029be02a26029bd02947029ba029b9029b80294f029b6029b5029b40294c029b2029b1,
  0x29e0029df029de02978029ff029dc029db00e3d0299d029d7029d6029d502962029d3029d2029d102961029cf029ce029cd02958029cb029ca029c9,
  0x29f8029f7029f602986029f4029f3029f20297d029f0029ef029ee0298a029ec029eb029ea02984029e8029e7029e60298f029e4029e3029e20297c,
  0x2a1002a0f0299f02a0d02a0c02a0b0299602a0902a0802a07029a302a0502a04029d902a03029ab0299c029ac00e3c029c2029fc029fb029fa02987,
  0x2a2802a2702a2f02a2500e3a029e802a2202a2102a20029ad02a1702a1e02a1c02a1b029b902a1902a1800e3b029db02a1502a1402a13029a002a11,
  0x2a40029da02a3e02a3d02a3c029d602a3a02a3902a5e02a0902a4402a3602a3402a33029be02a31029d002a3002a2e029c502a2c02a2b02a2a029c2,
  0x29e602a5702a5602a55029e502a5302a5202a51029dc02a4f02a4e02a4d029e902a4b02a4a02a49029e302a4702a4602a8502a45029ed02a4202a41,
  0x2a7002a6f02a6e029fe02a6c02a6b02a6a029f502a6802a6702a6602a0202a6402a6302a62029fc02a3702a6002a3800e3902a2102a5b02a5a02a59,
  0x2a8802a2202a86028ab028ac00e3702a4702a8102a8002a7f02a0c02a7602a7d02a7b02a7a02a1802a7802a7700e3802a3a02a7402a7302a72029ff,
  0x2aa002a2802a9e02a9d02a9c02a2c02a9a02a9902a9802a2402a250299c02a9502a9302a8c02a9202a1e0291c02a8f02a8d00e3602a5002a8a02a89,
  0x25ec025ed00e3402a7a02ab402ab302ab202a3a02ab002aaf02aae02ac502a3e02aab02aaa02aa902a3602aa702aac00e35028c002a6902aa202aa1,
  0xe3302a9502ace02acd02a9402af302a8002ac902ac802af602ac302acb02ac402ac302a5402ac102ac002abf02a4c02abd02abc02ad202a6202ab9,
  0x2ae802aef02a8400e3102aa902ae302ae202ae600e3202aa402ade02add02adc02a6b02ada02ad902ad802ae502a6802aba02ad602ad502abb00e30,
  0x2b0102b0002aff02afe02afc02a8f02aca02b0402b1002afa00e2e02aba02af402acc00e2f02af702a9a02ab602aee02aed02aec02a7202aea02ae9,
  0x2b1802b1c02b1702aa602b1402b1302b3a02ad502b7d02b1602a9f02b0d02b0f02b0c025fc02b0a02a9602b0702b0b02b2700e2d02a8c02b0202ac8,
  0x2ac502b2f02b2e02b2d02abd02b2b02b2a02b2902ab602ac700e2c02aea02b2402afd02b2202b2302b2002b2102ab402b1d02b1e025fa02aa702b19,
  0x2b1102b4800e2802b0a02b4402b4300e2902b0602b4002b3f02b5602b3e02ad302b3b02b1200e2a02af802b3d00e2b02afa02b3402ac602b3302b31,
  0x2afa02b5f02b5e00e2702b5d02aed02b5a02b5902b5802af602b2102b5502b5402b5302ae002b5102b5002b4f02adc02b4d02b4c02b6002b0502b49,
  0x2b7802b1202b760228c00e2602b3802b7202b7102b7002afd02b4a02b4202b6e02b7502b6a02afd02b6802b4b02b6b02b6702b6502b0202b6402b62,
  0x2b9002b8f02b2702b8d02b8300e2302b4f02b8902b8802b8702b0d02b8502b8402b8c02b2802b8102b8000e2402b4300e25023dd02b4102b7a02b79,
  0x2af002aa5025cb02bab02b430259602ba3024240259a02ba1024be023fc0240402317023a10232c0234a022f0022be0228d02b9e02b2102b8202b92,
  0x23ed02bc602bbe023a90234700e2201a1b02b7f01a1c02bb802bb602bb502b4202bb302bb202ae002bb102b3d02b7f02bae02bac02b3602ad302b46,
  0x300702bd702bd600e2102b9902bd302bd202bd102b6b02bcf02bce02bcd02b5802bcb025db02bca02bc802b520258e02be00312d0331602bc202bc1,
  0x2bf002bef02bee02b8802bec02beb02bea02b7502be802be702be6030ed02be402be302b7602be102b7002bdf02bde02bf302b8f02bdb02bda02c19,
  0x2c3702bf702c7302c0602c0502bdc00e1d02bc602c0002bff02bfe02b8b02bfc02bfb02bfa02b9402bf802bf702bf602b8102bf402bdd00e1f02bb6,
  0x2bae02c1f02c1e02c2e02be602c6302c1b02c1a00e1c02bdc02c1602c1502c1402ba502c1202c1102c1002ba002c0e02c0d02c0c02b9902c0a02c09,
  0x2c3802c3e02c4800e1a02bf902c3302c3202c3102bbe02c2f02c3500e1b02bf102c2b02c2a02c2902bba02c2702c2602c2502bb502c2302c2202c21,
  0x2c1c02c5002c4e02bde02c4c02c4b02c4a02bdd02c1d00e1702c0b02c4502c4400e1902c0702c4102c4002c5902c3f02bda02c3c02c3b02c3a02bc7,
  0x2bf902c6702c6602c6502c2002c7f00e1302c0702c5b02c2602c5e02c4302c5d00e1402c1f02c0800e1502c1c02c2d02c5602c5402c5302be402c51,
  0x2c8100e1102c4302c7d02c7c02c7b02c0602c7902c7802c7702c3c02c7502c0702c7400e1202c3602c3602c6f02c6e02c6d02bf802c6b02c6a02c69,
  0xe0e02c5c02c9602c9500e0f02c5802c9202c9102c8002c9002c1a02c8d02c8c02c8b02ca600e1002c4d02c8702c8602c8502c1002c8302c1b02c82,
  0x2cb002cb102c3d00e0d02cad02cab02ce002cac02c7102ca802ca702ca502ca402c2f02ca202ca102ca002c3002c9e02c9d02c9c02c5702c9a02c99,
  0x2cc802cc702cc602c4f02cc402cc302cdb02cc102cc202c5b02cbe02c5e02cbd02cd700e0b02c7e02cb802cb700e0c02c7a02cb402cbc02cb302cb2,
  0x2ce102cdf02cfb02c7002cdc02d0f02cf502cde02cd902c6202cd602cd502cd402c7200e2002cd202cd000e0902c9302ccd02ccc02ccb02cb602c65,
  0x2cf900e0402cbb02cf502cf402cf302c7e02cf102cf000e1e02cef02c7e02cec02ceb00e0502cae00e0a00e0702cab02ce502ce402ce302c7d02ce8,
  0x2d1002d3100e0202cd202d0c02d0b02d0a02c9502d0802d0702d0602c9702d0402d4702d0302d0102c9b02cff02d0202d8602cfe02d2402cfa02d15,
  0x2d2802cb502d2602d2502d2402cbe02d2202d5802ca902ccf02d2102d1d02cbd02d1b02d1a02d6402da202ca802d1702d1602d1402cea02d1302ca3,
  0xe1802ccc02d3e02d3d02d3c02ccc02d3a02d3900dff02cfc02d3602d3500e0002cf802d3200e0300e0102cf402d2e02d2d02d2c02cb802d2a02d29,
  0x2d7400dfd02d1b02d5502d5402de002d5202d5302cde02d4f02d4e02d5102d4c02d4d02d0402d4902ce702d4800dfe02d0a00e1602d4402d4202d41,
  0x2da702d8402d6e02d6d02d6c02cf202d6a02d3402d6902d6702cf202d6502d7200dfc02d0e02d3802d2702cda02d5f02d5d02d5c02ce902d5a02d59,
  0x2d1402d8702cfd00dfa02d4902d8302d8202e1e00df202d8102d0a02d7d02d7c02d4402d7a02d7902d8002db502d7b02d7602d1002e0402d7302d71,
  0x2da002d9f02d9e02d3102d9c02d9b02d9a02d3802d9802d9702d9602cfc02d2802d9302d9202dc302d6f02d8f02d8e02d8d02d1302d8b02d8a02d89,
  0x2db802db702d4402db502db402db302d5102db102db002daf02d3902dad02dac02dab02d3902da902dc002da802da602d5202da402da302da202d35,
  0x2dd002d5602dce02dcd00e0802dcc02d5802dc902dc802dc702d9002d6102dc402d9100df802d8600dfb00df902d8302dbd02dbc02dbb02d5502db9,
  0x2d9502de702de602de500e0602d7802de202de102de002d7302dde02ddd02ddc02d7a02dda02dd902dd802d6a02dd602dd502dd402d8002dd202dd1,
  0x2e0002dff02d9902dfd02dfc02d6f02dfb02d8702d7002df802df602df502d9302df302df202df102d7b02def02dee02ded02d7b02deb02dea02de9,
  0x2e0d02e0e02d6300df602e1802d1800df502dd602e1002e0f02e1302de302e0c02e0902e0b02dd902e0802e0702e0602d9502d1900df702dc702e01,
  0x2dbd02e3102e2f02e2e02dbd02e2b02e2a02d7702e5802df002e2602e2500df102de802e2202e2102e2002daf02e3a02d7800df302e2d00df402dde,
  0x2e4802e4702e4602e4902e4400df002e0702dd302e4002e3f02e7402e1202e8f02e3c02e3b02dd002e4102e3702e3602dc702e3802e3302e3402e32,
  0x2e4b00dee02e2302e5d02e5c02e5b02df402e5902e2900def02e1b02e5502e5402e5302de402e5102e5002e4f02ddf02e4d02e4c02e6102df802e2f,
  0x2e7802e7702e0102e7502e3e00deb02e3702e7102e7002e6f02e0202e6d02e6c00dec02e8602e4a00ded02e2c02e6602e6502e6402dfd02e6202e27,
  0x2e9600de902e5302e5f02e8c02e8b02eda02f3502e8d02e8802e8002e8702e8402e1a02e8202e8100dea02e3d02e4402e7d02e7c02e7b02e0702e79,
  0xde802ea802e3102e6c02ea502e6b02ea402ea102ea002e3102e9e02e9d02e9c02e2c02e9a02e9902e9802e2b02ec002e2302e9402e9302eca02ea3,
  0x2eaa02edb00de602e8202ebc02ebb00de702e7e02eb802eb702eb602e4702eb402f2202eb202eb302f6602f0402eb002e3e02eac02eab02eae02ea9,
  0x2ed802ed702ed602e6702ed402ed302ed202e6202ed002e9102ecf02ecd02e6002ecb02eba02e9200de502e8c02ec602ec502ec402e6002ec202ec1,
  0x2ef002eef02e8102f2802fb202eeb02e7802ee902ee802ee702eed02ee502ef402e8a02e7402ee102ee002fb502f7402eec02edd02ee200de402e9e,
  0x2f0802e9302f0602f0502f1102ea902f0202f0102f0002e8b02efe02efd02efc02e8d02efa02ef902ef802ee302e9602ef502ee400de302eb702ef1,
  0x2ee502f1f02f1e02f1d02ea902f1b02f1a02f1902ea502f1702f0302f1602f1402eae02f1202f0400de202ed402f0e02f0d02f0c02e9902f0a02f09,
  0x2fdd02f7b02f3802f3602f3502f3302ebf02f3102f3002f2f02ec202f2d02f3b02f2c02f5902f2502f4102f0302f2602f2502f2402eb702f3400de1,
  0x2f5002f4f02eea02f4d02f4c02f4b02ede02f4902f4802f4702edd02f8602f4402f4302f4502f4202ece00de002f2900ddf02f3d02f3f02f3a02f01,
  0x2efc02f6702eb100ddd02f2902f6302f6202f6102eec02f5f02f5e02f8702f5d02ee802f5a02f5c02f2700dde02f1b02f5502f5402f5302eed02f51,
  0x2f8002f7f02f7e02f0802f7c02f7b02f7a02f1002f7802f7702f7602f0302f7402f7302f7202f0f02f7002f6f02eaf02f6e02f0302f6b02f6a02f69,
  0xdda02f8f02f5c02f9502f9402f9302f4e02f9102f9002f5800ddb02f5202f8c02f2902f8b02f8902f1202f2a00ddc02f4a02f8402f8302f8202f14,
  0x2f7502faf02fae02fad02f2b02edc02f4002e8902fa902fa702fa602f3202fa402fa302fa202f2f02fa002f9f02f9e02f3c02f9c02f9b02f9a02e8a,
  0x2f5602fc702fc602fd002fa302fc300dd600dd702f8502fbf02fbe02fbd02f4802fbb02fba02ede02fb902f4802fb600dd802f7902fb302fc200dd9,
  0x2f7402f3902fdf00dd402fa102fdb02fda02fd902f6402fee02edf02fd702fd402fd302f6302fd102fed02fcf02fe000dd502f9102fcb02fca02fc9,
  0x2ff800dd002fbb02ffa02ff502ff302ff40300502fa302fef02f8400dd102fb100dd302faf02fe902fe802feb02fe602f3702fe502f8202fe702fe2,
  0x2fa40300f0300e02fce02ff000dcd02fcf0302502fc402fc50300902ff20301000dcf02fc7030010300002fff0300300dd202fc102ffb02fb602ff9,
  0x2fe900dcb0302702fe1030240302302feb0302202fac0301f030210301e0301c0301d0301a02fad0301802fa8030160301703015030940301403031,
  0x30400303f0303e02fd10303c0303b0304d030390303802fc40303600dc602ff90303303032030310304302fd50302e0302d02fc40302b0302a03035,
  0x301d03057030560305500dc5030280301803051030500304f02fda0302902c1800dc70300f030490302f030480304602fd6030440303a00dc903006,
  0x307002c8902c9802c9402c6202bd80300e02bd903069030670306602ff103064030630306202ffe030600305f030c9030630305c0305b0305a00dc4,
  0x301903087030860308502ff70301b0308203081030080308002d460302c02fd602fb102ebe02e6902e1d02e4302d5702cf802cba0300a0307203071,
  0x2e1a02e24030a502cf702cbb030130309d030990302902caa02c720309702c030227a00dc302297030560308f0308e0308d0301e0308b0308a03089,
  0x30b80304e030b6030b5030b40303f030b2030b1030b003041030ae030ad030ac03046030aa030a902ffd030a8030380300d02fcd02f210301202e90,
  0x30d00306a030ce030cd030cc0305d030ca0305e00dc20308c030c6030c5030c40307e030c2030c1030c003053030be030bd030bc0305a030ba030b9,
  0x3083030e7030e6030e503078030e3030e2030e10307f030df030de030dd03073030db030da030d903064030d7030d6030d5030660305d030d3030d1,
  0xdce03100030fe030fd0308e030fb030fa030f90308f030f7031110318103307030f3030f200dcc030f6030ef0308200dc1030b1030eb030ea030e9,
  0x3118030f00311603115031140309a03112030a4031100310f0310e030990310c0310b0310a0309a031080310703106030a10310403103031020309a,
  0x30b7031360312f0312e00dbf031450312a033e50370e031270312600dc0030e9031230312203121030af0311f0311e0311d030b700dca0311b03119,
  0x3148033ad033650314b0314403143030d6031410314000dc80313f030dc0313c0313b031200313a03139030cb0313700dbe030f9031330313203131,
  0x31600315f0315e030f40315c0315b0315a030ed031580318d030ea0315703155031670315300dbd031150314f0314e0314d030e70337d030d503149,
  0x31780316a0310e031750316b00dbb0313703171031700316f031070316d0316c031740318a0310a031680316900dbc0312a031640316303162030fa,
  0x3191031900318e0315200db8031500315400db90314d031870318603185031a003112031820318300dba031440317e0317d0317c031140317a03179,
  0x31a80313b03237031a6031a4031a5031a303135031a200db7031630319d0319c0319b03133031990321e0319803196031970312803166031930312c,
  0x31c003153031be031bd031bc0315a031ba031b9031b80314a031b6031b5031e10318d031b2031b1031b00314b031ae031ad031ac03146031aa031a9,
  0x31d803165031d6031d5031d403172031d2031d1031d00315a031ce031cd031cc0315a031ca031c9031c803174031c6031c5031c403157031c2031c1,
  0x319d031ef031ee031ed03173031eb031ea031e903176031e7031e6031e5031b30317f031e2031b400db6031a4031de031dd031dc03176031da031d9,
  0x3197032070320603205031b103203032020320103194031ff031fe031fd03190031fb031fa031f903197031f7031f6031f503187031f3031f2031f1,
  0x3221032200321f00db5031e10321b0321a03219031b3032170321603215031a2032130321203211031af0320f0320e0320d031970320b0320a03209,
  0x323903237032380323503236031c40323403232031bd0323000db4031f20322c0322b0322a031c2032280322f0322603227032240323c031da031ba,
  0x31dd032480324f0324d0324c031dd0324a0324900db2032220320c032450324403243031db03241032400323f031d50323d0322500db3031f0031ff,
  0x320a0326803266032670327e0327003264031fc00db0032600325e032240325c0328e0321d0325b03259032580325700db103219032530325203251,
  0x323f0327f032c90327d032a60320a0327b0327a0327800dae0323b03277032130327503273032720327100daf0336c032330326c0326b0326a03203,
  0x329803297032960322903294032930329f0323d0325a032900325d00dad032510328b0328a032890321c03287032860328503218032830328203281,
  0x32b003246032ae03279032ad032ab0326303291032650323800daa0326a032a4032a300dab03266032a00329200dac032620329c0329b0329a0322d,
  0xda90328c032c6032c5032c40325d032c2032c1032c00324d032be032bd032bc03247032ba032b9032b803245032b6032b5032b40324e032b2032b1,
  0x32e0032df032de032a20326f032db032da032d9032e7032d7033560326f032f2032d4032d3032d1032d2032cf0335e032fc0325a032cc032cb032ca,
  0x333d032f8032f7032f5032f4032fd03281032d8032f1032ef032f0032ed032ee0328803316032ea0331b032e800da8032aa032e4032e3032e20326d,
  0x33110330503300032fb032f2032f600da200da1032cd033070330600da4032c9032ce033020330100da5032c4032fe03303032fc00da7032bf032f9,
  0x33280332d032fc03304033240332300d9e032e603318033200331900d9f032e10331b0331a0331e032ea03317033250331500da0032d8033120330f,
  0x33400333f00d99033020333c0333b0333a033480331103337033360332b00d9a032f8033260332700d9b032f40332e033320332c00d9d032ef03329,
  0x32ec03357032d600d96033190333e03353033350332203314032e9032ec00d9703310033380334a0334300d980330b0334503344033510334203309,
  0x32ff0336f030f40336e032cd030f500d940332e0336803367032d503366032f6033630336203361032e90335f032d000d95033210335b0335a03359,
  0x33900326f032550322e033870321d0330f0318f03151033810337e031350312c0326102bc300d9202bc40319f00d930333a03374033730337203180,
  0x33a003332037ab0339d0339c037c7039d5033990339800d910335b0339503394033930332d033910339e0338f033cd0362f0338c0338b032e6032c8,
  0x380f033c9033be033b5033b403352033b2033b1033b003342033ae033b600d9003370033aa033a9033a803346033a6033a5033a403336033a2033a1,
  0x33d00335d033ce033fa033cc00d8c0338f0314700d8d0338c033c6033c500d8e03388033c2033c100d8f033840376d033bd033bc03356033ba033b9,
  0x33e903375033e603420033e400d8b033a7033e1033e0033df03379033dd033dc033db03364033d9033d8033d7033ac033c00337103146033d3033d1,
  0x3411033cc033fe033fd00da3033ca00d8a033be033f800da6033f7033f50338f033f3033f2033f10337a033ef033ee033ed03387033eb033ea033c4,
  0x33b503417034160343003415033a1034120341400d89033d40340e0340d0340c0339f0340a03409034080339e0340603405034040339f0340203401,
  0x340000d87033f30342d0342c0342b033c70342900d9c0342803426033b3034240342303434033c9033db0341f0341e00d88033e10341b0341a03419,
  0x34480344700d840340a0341003421034440344103440033cb0343e0343d0343c034b5033c8034390343800d85033fb03435033ff0342200d86033f6,
  0xd7f034240345e0345d00d80034200345a0345900d810341c03456034550346f00d830341703451034500344f033da0344d0344c0344b00d820340e,
  0x340a034770347603475034c00347303472033ff03470034130346e0346d0346c033ff0346a0346900d7d0342c034660346500d7e034280346203461,
  0x348203455034600348e0348c0348b034270345c034890348700d7b0344a034840348300d7c03446034800347f0347e034090347c034580347b03479,
  0x34a800d770346b034a5034a400d7803467034a1034a000d79034630349d034680349c034640349a0342403497034960349503425034930349200d7a,
  0x34db00d7403483034c6034bd00d720347f034b9034b8034a7034bb00d7503479034b3034b2034b10343d0349103486034af034ac00d760346f034a9,
  0x34d8034d7034d6034ab034a30349f03468034d1034d000d7003493034cd034cc00d710348f034eb034c8034c9034c703462034c4034c300d7303486,
  0x34b5034ef034ee034ed034730350100d6f034ae034e8034e7034e603479034f2034e4034e303468034e0034df034de0347a034dc034e2034da03474,
  0x34ee0350700d6a03506035040349303502034ca0350000d6c00d6b034c2034fc034fb034ff034c3034f8034cb034f700d6d034b9034f30350d00d6e,
  0x3520034af0351e0351d0353700d60034f1034df0351903518035160351703515034ad0351203511035100349f0350e00d69034d10350b0350a034f9,
  0x35380351b00d67034fa035340353303532034b9035300352f035090352e034bd0352b0352a03529034b60352703526034fa00d68034e80352203521,
  0x35500354f0354e034e00354c0354b0354a034e0035480354700d630350a035440354300d6403506035400353f00d65035020353c0353b00d66034fe,
  0x350303567035660354603565034ed035620356103560034fe035790355e0355c00d610351f03525035590353a03557035550356a0351c00d6203516,
  0x35810350d0357e0357d03587035f30357a035800354203578035760358b0353e00d5f035370351403570035710356f0356d035070356b0356e03569,
  0x35980359703596035230359403593035270359103592035900358e0352a0358c035ea0352a035890358a00d56035880354b0358503584035820350f,
  0xd5e03574035ae035ad035ac0353f035aa035a9035a803546035a6035a5035a40352e035a2035a1035a00352e0359e036530359d035c30359c035f8,
  0x35c8035c7035c603550035c4035e9035c2035b000d5d03584035be035bd035bc03548035ba035b9035b803544035b6035b5035b40354e035b2035b1,
  0x35e0035df035de0357c035dc035db035da03564035d8035d7035d603564035d4035d3035d20358c035d0035cf035ce03561035cc035cb035ca0355d,
  0x35f8035f703582035f5035f4035f303591035f1035f0035ef03589035ed035ec035eb03578035a1035e8035e700d5c035aa035e4035e3035e203575,
  0x36100359c0360e0360d0360c03617035980360903608036070359e036050360400d5b035c70360103600035ff0358c035fd035fc035fb03595035f9,
  0x35e3036270362603625035b003640036230362103620035b10361e0361d036220361c035b90361903618035b2036160361500d5a035d80361203611,
  0x35c10359a0359b00d59036010363b0363a03639035cc036370363603635035d3036330363203631035bb0362f0362e0362d035bb0362b0362a03629,
  0x36580357c00d570361a036540366600d5803616036500364f0364e0361403603035e80364a0364903648035e303646035e60364503643035d603641,
  0x3697036830366e00d50036310366b0366a00d520362d0366700d530362a036640366300d540366d0362600d550365f0357b0365d036230365a03659,
  0x3689036870361703685036520368400d4c0364603680036730367f0367d0360a0367b034c20367400d4d0363c03676036750367a036150367203671,
  0x36a4034ea0369f0364d0369c0369b00d4b0362b03698034b7034370365e033fc033cb0338d0338e03662036940368e0368d036a7036180368a0365b,
  0x36bb036b7036b8036b50364403640036b3036b2036b0036b1036af0363b036ac036ab0376603700036a8036ae03645036a5036690357403553036bf,
  0x36d000d4903693036cd036cc036cb03656036c9036c8036c703653036c5036c4036c30365d036c1036c000d4f00d4a03682036bc037540364c036b9,
  0x36820367003670036e5036e4036e303673036e1036e0036df0366c036dd036dc036db0366a036d9036d8036ed0367e036d5036d4036fa036d3036d1,
  0x3700036ff036fe037070368e036fb036fc00d47036bd036f7036cf0366f036f6036f303680036d60369a036d7036f100d48036b1036eb036ea036e9,
  0x371803717036a3037150371403713036ad037110371003720036b30370d0370c036d00370a0370b036970370900d46036ca0370403703037020368d,
  0x3730036bc0372e0372d0372c036b80372a0372903728036c2037260370e0372503723036b6037210370f00d45036e30371d0371c0371b036a703719,
  0x3748037450374700d430370903743037420374103706036cd0373e0373d0373c036c80373a036f9036d20373903736036d300d44036f80373203731,
  0x3761036ee0375e0375d0375c036ea0375a0375903758036f203756037550344600d5100d4203716037500374f0374e036e00374c0374b0374a036e0,
  0x34cf03779034bc03453034540341d033e30312803129036a90370b00d40037310376b0376a037690372303767036aa00d4103729037630376200d4e,
  0x37ed03a170378e037a5037290378b0378a03aad03e0903787037860368b0378d036600355d0355b00d3f03744034f1035140377e034f50377b034bf,
  0x3733037a7037a6037ae00d3e03768037a2037a1037a00372f0379e0379d0379c037280379a0379903798037250379603795037a4037710379203791,
  0x37c0037bf037be03751037bc037bb03794037b9037ba0374e037b800d3d03779037b3037b2037b6037b103749037b003a7503738037ab037aa037a9,
  0x37d8037d7037d60375c037d4037d3037d20376e037d0037cf037ce03789037cc037cb037ca03777037c8037e600d3c0378a037c4037c3037c20374d,
  0x37f00377d037ee0380c00d3a037b0037ea037e9037e80381e0376e037e5037b5037e4037e20377e037e0037ad03793037df037f90379400d3b0379e,
  0x37cd037db0380703805038040379103802038010380003796037fe037fd00d38037c0037fa037dc00d39037bc037f6037f5037f403781037f2037f1,
  0x33b7037b70383d00d34037e10381b0381a03819037a6038170381603815037b30383200d35037d603810033b800d3603813037d20380b0380a00d37,
  0x3809038380383603862038150383303835037c8038300382f00d33037f20382c0382b0382a037c6038280382703826037b3037fc038240382203821,
  0x37dd0384f0384e0384d037d80384b0384a03849037d603847038460386400d3203808038420384103816038400383f037db0383c0383b0383a037c7,
  0x386903868037f403865037fb038630386c00d30038250385f0385e0385d037e80385b0385a03859037ef038570385600d3103819038530385203851,
  0x38120387f0387e0387d0380d0387b0387a03879038150384500d2f0383a03874038730387203801038700386f0386e03877038040386b0386a0388f,
  0x3898038970389603829038b30389400d2c038560389003855038ad00d2d038510388b0388a03889038610389200d2e0384a03884038830383403882,
  0x38b10383c038ae03840038ac038ab038aa03856038a8038a7038a603831038a4038a3038a20382f038a00389f0389e038380389c0389b0389a03837,
  0x38e700d2b0388b038c5038c4038c30385d038c1038c0038bf0385b038bd03972038bc038ba0399803858038b703925038b6038b5038c8038b2038b4,
  0x38e0038ca00d2a038a2038dc038db038da03862038d8038d7038d603866038d4038d3038d20385f038d0038cf038ce0386c038cc038cb038df03879,
  0x38bd038f7038f6038f50387d038f303888038c9038f2038ef0387f038f1038ec038ed0390403918038e8038ea038e603873038e4038e3038e203880,
  0x3915039100389a0390d0390c0390b038a203909039080390703892039050390f00d28038c70390103900038ff0388c038fd038fc038fb0391900d29,
  0x39d003928038c103925038b503914039240392203949039230391e038dc039d6039a10391a0391c0391803917038ab0392000d27038d80391203911,
  0x3940038d00393e0393d0393c038c90393a0393903938038c5039360393503934038d2039320393103930038bb0392e0392d0392c038c50392a03929,
  0x38e4039570395603955038ec039530395203951038e90391f0394f0394d0394c038e20394a0392100d260390c039460394503944038cc0394203941,
  0x39350396f0396e0396d038f50396b0396a03969038f9039670396603965038f2039630396203961038ee0395f0395e0395d038fb0395b0395a03959,
  0x390303928038e903986039840398303920039810398000d23039430397d0397c0397b038eb00d240393d0397703976039750390e039730399100d25,
  0x39ca039260399e0399d0399c039320399f0399a038b8039e6038bb00d2203989039590399303992039900398f0391c0398d0398c0397f0398b03914,
  0x396c039b7039b6039b503948039b3039b2039b10394f039af039ae039ad03938039ab039aa039a90393a039a7039a6039a503935039a3039a2039a1,
  0xd2003994039ce039cd039cc03959039e900d210398d039c7039c6039c50395f039c3039c2039c103952039bf039be039bd03953039bb039ba039b9,
  0x3976039e700d1e039aa039e4039e3039e203979039e003a05039df039dd03969039db039da039d903977039d7039de039f400d1f03998039d2039d1,
  0x3a000398d03996039ff039a703991039fe039f9039fb03a6503a02039f5039fa039f3039f7039f203981039f1039ef0399903981039ed039eb039ea,
  0x3a180339a039d500d1c039d903a1303a1203a11039a503a0f0391b03a0e03a0c0399c03a0a03a0903a0803a59039950391d00d1d03a06039c803a01,
  0x3a30039ba03a2e03a2d03a2c039e303a2a03a2903a28039b903a2603a2503a24039ac03a2203a2103a20039b003a1e03a1d03a42039fc03a1a03a19,
  0x3a4903a4703a4603893039d403a4303a1b03a1c00d1b0388603a0403a3d0381d03a3c03a3a037c6039c90339b03a3703a3503a34039c603a3203a31,
  0x3a60039f303a5e03a5d03a5c039ef03a5a0378f00d1a03a1c03a5603a5503a54039e703a5203a5103a50039ee03a4e03a4d03a4c039c9039d603971,
  0x3a1603a7703a7600d1803a39039f603a7303a7103a7003a0103a6e03a6d03a6c03a0603a6a03a6903a68039ff03a66039f800d1903a2803a6203a61,
  0x3a2503a8f03a8e03a8d03a29038f903a8b03a8903aa8038c703e1e03a8503a840388d00d1703a4603a8003a7f038440381203a7e0382e037ec03790,
  0x3aa900d1503a6b03aa503aa403aa303a3d03aa103aa003a9f03a2a03a9d03a9c03a9b03ab103ecb03e6103a9703a9603ed303eeb03a9303a92039d4,
  0x3ac003abf03abe03a4b03abc03abb03eaa03ab903ab803a5403ab603ab503ab403a4103ab203ad303a6903adc03aaf03aae00d1303a7003af503aaa,
  0x3ad803ad700d0e03a9a03ad403aba00d1003a9603ad003acf03ace03a6a03acc03acb03aca03a5703ac803ac700d1203a8a03ac403ac303ac203a5e,
  0x3af003a7603aee03aed03aec03b0603ad600d0c03aad03ae703ae603ae503a7003ab003ae303ae103ae003a8803ade03a7003add00d0d03ac603a9f,
  0x3b0a03b0803b0703b0503aa103b0303b0200d0a03ac503aff03afe03afd03a8303afb03afa03ab903af903af803a9403af600d0b03ab803af203af1,
  0x3b1400d0603ae303b1d03b1c03b3600d0703ade03b1803b3e03aa403b1703b1503b2003b1300d0903ad503b0f03b0e03b0103b0d03a9f03b1b03a97,
  0x3aff03b3803b3703b3503b3403ace03b3203b3103b3003ab903b2e03b2d03b1203b2c03ac903b2903b2803b2703ab403b2503b2400d0503ae703b21,
  0x3b5003b4f03b4e03ae803b4c03b4b03b4a03ad303b4803b4703b4603ae403b5303b7003b4803b4403b4103b4003b3f03b8e03b3c00d0403b3b03acd,
  0x3b5b00cff03b2b03b6503b6403b6303aee03b6103b6003b5f03af003b5d03b5c03b9a03b6803b5a03b5803aeb03afe03b5603b5503b5400d0203b16,
  0x3b8000d1603b7f03b0f03b7c03b7b03b7a03b1003b7803b7703b1003b7603b0e03b7303b7203b7500cfe03b3403b6e03b5903b6d03b6b03af603b69,
  0x3b5d03b9703b9603b9503b2d03ba903b9303b9103b9003b2603b9200cfc03b5103b8b03b8a03b8903b2703b8703b8603b8500d0000cfd03b4703b81,
  0x3c8b03baf00cfa03bae03d3203b7203cbd03baa03ba803ba703b3f03ba500d1403bbe03ba203ba403ba103c2a03bc803ba003b9d03b3303b9b00cfb,
  0x3bc903bc803bd800cf803b8900d1103bc303bc103bc003b4d03bbe03bbd03be203b7e03bba03bb903b4203b7103cc703bda03c0603bb303b4303bb2,
  0x3ba503bdf03bde03bff03c2203c4203bab03bd903bdb00cf703b9b03bd503c5803bd403bd203bd303b6f00d0f03bcf03bcd03c5e03b5f03bcb03bca,
  0x3bf803bf703bf603b7c03bf403bf303bf203b7f03bf003bef03bee03b8c03bec03beb03bea03b7b03be803be703bbb03be603b7b03be303bbc00cf6,
  0xcf403bd400d0803c0e03c0c03c0b03ba503c0903c0803c0703c1103b9803c0403c0303c0203b9803c0003c0500cf503bc203bfc03bfb03bfa03bb0,
  0x3bed03c2703bc503c2603c2403bbb03bc600cf303be503c1f03c1e03c1d03bfe03ba803c1a03c1903bdc03c1803ba403c1503c1403c1303bb103bdd,
  0x3c0503c3f03c3e03c3d03bd803c3b03c3a03c3103b9e03c3903bd100d0303c3503bd703c3300cf103bf503c2f03c2e03c2d03bc603c2b03b9f00cf2,
  0x3c5903c7e03c5700cef03c1903c5303c5203c5103bdd00d0103c4f03c4d03c4c03be603c4a03c4903c4803bde03c4603c4503c4403bd700cf900cf0,
  0x3c7003c6f03c0503c6d03c6c00ced03c2f03c6903bb803c6803c6603c0003c6403d7f03c6203c6303c6003be803c5e03bed03c5d03da703d5803c5c,
  0x3c8803c8700ceb03c4a03c8403c8303cd403c8203c1b03c8103c7f03c7d03c7c03c1203c7a03c7900cec03bb403c3c03c7503c7403c7303c0403c71,
  0x3ca003c9f03c9e03cb303c3c03c9b00cee03c9a03c9c00cea03c5b03c9503c9403c9303c1e03c9103c9003c8f03c1f03c8d03c8c03cb203c8b03c25,
  0x3cba03cb803cb603caf03c5203cb403c4503c7803cb103caf03cae03c4803cac03cab03cdd03c7503ca803ca700ce703c6a03ca403ca303ca203c35,
  0x3cd003ccf03c8603c5c03ccc03ccb03cee03c8603cc800ce900ce603c6b03c8a03cc303bcc03d7c03cc003cc203cbe03c4a03cbc03cbb03c4603cb9,
  0x3ca903c7c03ce603ce503ce403c8203ce203ce103ce003c7c03cde03caa00ce503ca003cda03cd903cd803c6b03cd603cd503cd403c5603c7203cd1,
  0x3d0003cff03c8a03cfd03cfc03cfb03c9703cc903cf903cf703cf603c9003cf403cf303cf203bb503c7e03cef03cca00ce403cb103ceb03cea03ce9,
  0x3cb003d1703d1603d1503ca203d1303d1203d1100ce800ce303cd303d0d03d0c03d0b03c9c03d0903d0803d0703c9703d0503d0403d0303c9903d01,
  0x3cf503d2f03d2e03d2d03cc803d2b03d2a03d2903cb903d2703d2603d2503cb203d2303d2200ce203ce503d1f03d1e03d1d03cb103d1b03d1a03d19,
  0x3d4803d4703d4603d2103ce303d4303d4203c8a03d4103cd603d3e03d3d03d3c03cc803ca603d3a03c9803d3803d3603ccc03bab03d3403bac00ce1,
  0x3d6003d5f03d5e03cf003d5c03d5b03d5a03cec03d5803d5703d5603ce603d5403d5303d6703d2303d5003d4f03d4e03ce803d4c03d4b03d4a03cdd,
  0x3d5103d7803d7603d0203d7403d7303d7203d0c03d7003d6f03d6e03d0003d6c03d6b03d6a03d0003d6803d5200ce003d2a03d6403d6303d6203d00,
  0x3d9003d8f03d5d03d8d03d1f03d8b03d8c03d8a03d8803d1503d3403d8600cdd03d8403d4803d8503d8100cde03d4303d7d03d8000cdf03d3f03d79,
  0x3da803daa03dc303da503da400cdc03d6703da103da003d9f03da303d2b03d3003d9c03d9a03d9b03d9903d9803d9603d2603d9403d9303db403dd8,
  0x3c5a03dc003d5803dc503c5b00cda03d7f03db903db803db703d5003db503dbc00cdb03d7703db103db003daf03d4003dad03dac03dbd03dab03d3a,
  0x3dd900cd703d9b03dd503dd403dd303db303d7103dd003dcf03d9103dce00cd803d9003dca03da603dc903dc703d6503d9200cd903d8803dc203dc1,
  0x3df203df003e0003d9c03def03dec03deb03dea00cd603d7603de603de503de403dac03de203d7e03de003de103ddf03ddd03d6703dde03ddb03d76,
  0x3da103e0803ded03e0603e0b03e0703d9503e0103dee00cd303e0200cd503dc103dfb03dfa00cd203dbd03df703df603df503df903d7f03d8203df1,
  0x3e2503e1f03e2003db903e1c03dae03e1b03e1a03e1803e1903e2d03db203e1403e1303e1203da503df103e0f03e1003e0d03e0e03e0c03e3e03df0,
  0x3dfd03e1503e3703e3500cce03df803e3203e3100ccf03df403e2e00cd100ccb00cd003def03e2900cca03dec03e2603e2803e2403daf03e2203e21,
  0x3e5003adb03e4f03dd403e4c03e4b03e4a03e5103e4803de603e4603e4703e4503e9803e2c03dd803e4103e4003e3f00ccc03e0103e3b03e3a00ccd,
  0x3e3903e0503e6603e3003e6503e8603e1503e6103e6000cc903e2303e5d03e5c03e5b03e0903c9703df503e5703e1703e5603b1a03e5403dee03e7a,
  0x3a8803e5f03dfd03d7b00cc703e4000cc803d8903b8d03bb003e3e03e7503e7403e7303df903b2303aea03e3403aac0378803e710378903e6b03e69,
  0x3e4300cc603e5b03e9503e3d03e0403de803e9403dd703d8203c5503bc703b9903e9003e1e03b5203b3d03e8903b1103af403aa703e6203a8703e63,
  0x3edd03efc03eae03ead00cc203e7003ec003ea903ea803e3703ea603ea503f950400203ea203ea100cc403e6403e9e03e9d03e9c03e2f03e4203e9a,
  0x3ec803ec703ec603e6403ec403ec303ec203e5100cc103e8403ebe03ebd03ebc03e5803eba03eb903eb803e4503eb603eb503ecf03e6503eb203eb1,
  0x3ee603eb303ee003edf00cbe03a9803ea003ed903ed803ed703ef803e6403ed403ed500cbf03e9603ed003eb400cc003e9203ecc03a9900cb303e8e,
  0x3efa00cbc03ebb03ef503ef403ef303e8a03ef103ef003eef03e7a03eed03eec03eeb03e8903ee903ee803e9600cbd03eaa03ee403ee303ee203e6f,
  0x3eda03ed503f0e03f0d03f0c03ea503f0a03f0f03f0903f0703f0800cbb03ec903ec903f0203f0103f0003e9903efe03efd03efc03f0300cd403e8b,
  0x3ebe03f2803f2603f2503eb203f4f03f2303f2703f2103eb703f2000cb903ee103f1b03f1a03f1903ea603f1703f1e03f1603f2b03f1503f3e00cba,
  0x3f1103f4003f1f00cb703f0103f3b03f3a03f3903ebf03f3703f3603f3503ed103f3303f3203f3103ebe03f1303f5d03f1403f2f00cb803f2d03eef,
  0x3f5803ede03f5603f5503f5403ef003a9403f5203f5003a9500cb603f1203f4c03f4b03f4a03ed003f4803f4703f4603ee203f4403f4303f4203ecf,
  0x3f0503f7000cb403f3203edc03f6c03ee703f6a03f6803eee03f6603f6503f6403eaf03f0003f1203eb003ef703f6100cb503f2103ed203f5b03f59,
  0x3f2b03f8703f860414e0414203f8303f820408704e1d03f7f03f7e03f8803f7c03f0b03f7a03f7903f7803f0703f7603f7503fb603ff103f1d03f72,
  0x3fa003f9f03f9e00cc303f4403f9b03f9a03fcc03f6603fd403f9703f9600cb103f5803f9200cc503f9100cb203f5303f8d03f8c03f8b03f2903f89,
  0x3fdd03fb803fb700cb003f7903fb303fb203fb103f4403faf03fae03fad03f4303fab03faa03fa90405d03fa700ca103f6a03fa403fa303fa203f2f,
  0x3fba00cae03f9303fcd03f9900caf03f8f03f8f03fc803fc703fc603f5903fc403fc303fc203f5803fc003fbf03fbe03f5903fbc03fbb03fd003f6a,
  0x3fe900cab03fab03fe503fb903fe403f7603fe203f9803fe103f6e03fde00cac03fa003fda03f9a03fd903fd703fd803f6403fd500cad03f9703fd1,
  0x400003fff03ffe0401300caa03fc003ffa03ff903ff803f8903ff603ff503ff403f8e03ff203ff103ff003f8a0400703f8a03fee03feb03fec03fea,
  0x40180402d03fb4040160401500ca803fd704011040100400f040210400d03fa903f950400a0400b040090400800ca903fca04004040030400203f88,
  0x40320403003fcc00ca603ff10402b0403e0402a040290402703fb60402803fab04025040230402200ca703fe40401e0401d0401c03fa20401a04019,
  0x400d0404b04047040460404403fe004045040410404203fda0403f00ca504049040010403a040390403803fd10403604035040340403b03fc304031,
  0x40610423604d7d00ca2040060402103fe703fdc03fb50405a0405603f730405503f7400ca304016040500404f0404e03ffc03fe103fd303fdb00ca4,
  0x40780407704014040820400f040730402e040720407003ffb0406e0406d0406c03ff60406a03f9404069040d203ea30403d03ea4040df0406204020,
  0x40900408f0408e040180408c0408b040a80413f04088040a600ca00404a040840408304eb90400f040800407f0409a04eca0407c0407b04f43050b5,
  0x40a9041d500c9f0406a040a4040a300bc90406604ed9040a00409e04ec804e620409b00bcb0405e040980409f040a2040300409404093040920401d,
  0xc9e04084040be040bd040bc04045040ba040b9040b80403e040b6040b5040b40403f040b2040b1040b00403f040ae040ad040ac0403e040c1040aa,
  0x4074040d7040d6040d504072040d3040db00c9d04095040cf040ce040cd0405e040cb040ca040c904067040c7040c604081040c5040c404051040c2,
  0x40f0040ef0408d040fa040ed040eb040ea04085040e804085040e7040e6040e5040e400c9c040a6040e0040df040de0407c040f4040dc040da040d9,
  0x410800c98040cb04105040ce041040410300c99041010409e040fe040c5040fc040fb00c9a040be040f8040f7040f60408e040fd00c9b040b7040f1,
  0x41220413a040bc0411e0411c0411d0411a04119040b704120040a60411704115041140411300c97040d50410f0410e0410d040a70411200c960410b,
  0x40fd041370413604135040ce04133041070413204130040bd0412e0412d0412c040b7041020412a0412804127040c1041250414504124040b104121,
  0x40f304150040d1040660415c00c920410f0414904158041470414804146041440406700c9404106041400413f040d10413e0413d040cd0413b00c95,
  0x40f5041a504166041650416704103041b90416300c8f041240415e041620417d0415d0415b0417f0415900c910411b04155041540415304116040e0,
  0x4183041800417e00c8c041410417b0417a041790410d041770417600c8d04139041730417204171040fd0416f0416e00c8e041310416b0416a04169,
  0x419804197041960412800c9000c8a0415704191041900418f04194041220418c041600418d0418b00c8b0414c04189041860411c041840418204111,
  0x40ff041b2040e2040c0041ae0413f041aa041a9041a8040a70413e0408903f850408a00c8804166041a00419f0419e041310419c0419b00c890415e,
  0xc850418c041c60417d041c5041c30415604175041c10416d041bf041bd041530415a041bb00c8700c860414b0417c03f8404157041b50413904111,
  0x41e0041610416d041dd041dc041db04168041d9041d8041d704175041f3041d400c8304197041d1041d000c84041930419a04158041cd041ca04188,
  0x41e900c81041bb042730422b041f5041f2041f10417e041ef041ee041ed0417a041eb041ea041f904196041e7041e600c82041a9041c9041e3041e1,
  0x42100420f0420e041aa0420c0420b0421c04204041ba041cf042070420500c80041c804202042010420004194041fe041fd041fc04189041fa041e8,
  0x4228041bb04209042260422400c7d041e704221042200421f041b90421d0420a00c7e041df04219042160421800c7f041da042140421304212041ac,
  0x424000c93041cd042310423d0423b0425f04233042f3042380423700c7b041f9042330423200c7c041f50422f0422e042230422d041c70422a04229,
  0x42580425704256041e6042540425304252041df042500424f0426c0424d00c7a042100424a0424904248041d9042460424504244041d40424204241,
  0x42700429e042a8042840426f0426b041fe042690426804267041fd04265042640429504263041fd042600426200c79042220425c0425b0425a041eb,
  0x4289042870421a042850427700c770424704281042800427f042120427d0427c0427b0421104279042780428d042840421f042740427600c7804236,
  0x42400429f042bc0429d00c73042600429a042390429900c740425b0423a00c750425804292041f4042910428f0422c0424e00c76042500428a04275,
  0x427d042b7042ba042b600c7104278042b2042b1042b004240042ae0425e042ad042ab04235042a9042b500c720426b04297042a5042a3042a204272,
  0x42d0042cf042ce0425b042cc042cb042ca04280042c804268042c6042c5042c40425b042c2042c1042f0042bf04703046c7042d30426e042c700c70,
  0x426e00c6e042ab042e5042bb042e4042e20426f042e0042df042de0427c042dc042db042da04271042d8042d7042d604262042d4042c000c6f04296,
  0x4300042ff0428a04848042fd042fc042fb042fa042b9042a70426d047b004749048590435e046cb042f2042ef00c6d042b2042ec042b4042eb042e9,
  0x4318042b2043160431504314048950429f0431104310048a3042a70430d0430c0430b042a3043090430804339042ca04305043040434a0469c04301,
  0x4330042ca0432e0432d0432c042c00432a0432904328042c4043260432504324042c2043220432104320042ad0431e0431d0431c042d90431a04319,
  0x433f043470434604345042cd043430434204341042d10433f0433e043060433d042c90433a0430700c6a042fc043360433504334042bf0433204331,
  0x42ec0435f0438800c68043210435b0435a04359042e1043570435604355042e5043530435204351042de0434f0434e0434d042da0434b043690437b,
  0x43780437704376042fe04374043730437204302043700436f0436e042fb0436c0436b043c30436a042f604367043660447c04598043630436204361,
  0x4390043280438e0438d0438c043220438a047070438900c660434b0438504384043830434804310043800437f0437e0431c0437c00c6900c670433e,
  0x4339043a7043a6043a504332043a3043a2043a10432e0439f0439e0439d0435b0439b0439a04399043240439704396043950432c043930438704392,
  0x43c0043bf043be04351043bc043bb043ba04350043b8043b7043b604354043b4043b1043b300c6504375043af043ae043ad04335043ab043aa043a9,
  0x43d8043d7043d604367043d4043d3043d204368043d0043cf043ce04361043cc043cb043ca04360043c8043c7043c6043df04360043c400c6404386,
  0x43f0043ef04382043ed043ec043eb04388043e9043e8044150439f043e5043e4043e304392043e104373043e000c63043a2043dc043db043da04372,
  0x44080439c044060440504404043a0044020440104400044680439e043fd043fc043fb04388043f9043f8043f7043b4043f5043f4043f30438d043f1,
  0x43bb0441f0441e04442043ed0441b0441a04419043aa043e604417043e700c62043d80441204411044100439b0440e0440d0440c043a60440a04409,
  0x43c9044370443604435043c0044330443204431043cd0442f0442e0442d043c70442b0442a04429043d2044270442604425043bf044230442204421,
  0x44500444f0444e043d90444c0444b0444a043e6044480444704446043e00441c044440441d00c61044050443f0443e0443d043ca0443b0443a04439,
  0x446900c5f0442b044650446404463043f00445a044610445f0445e043fc0445c0445b00c600441e044580445704456043e3044540445304452043e2,
  0x44800447f0441d0447d0448200c5e0443f044790447804477044040447504474044730440304471044700446f043ff044870446d044030446a0446b,
  0x443404497044960449504426044930449204491044210448f0448e0448d0441d0448b0448a04489044dc04418044860448504484044b30441104481,
  0x44b0044af044ae0443d044ac044ab044aa00c5d0446d044a7044a6044a504436044a3044a2044a1044290449f0449e0449d0442d0449b0449a04499,
  0x44c8044c704454044c5044c4044c304461044c1044c0044bf044c50444a044bc044bb044bd044ba04452044b7044b6044b50444f044b900c5c04476,
  0x447a045bd044de044df044dd00c5b0449f044d9044d8044d704463044d5044d4044d30445b044d1044d0044cf0445f044cd044cc044cb04458044c9,
  0x44f8044f704484044f5044f4044f304480044f1044f0045a604564044fb044ed044eb044ea04475044e8044e7044e60447d044e4044e3044e204623,
  0x44a80450f0450e0455a0450d044a40450a04509045080449e045060450500c5a044c804502045010450004488044fe044fd0450c044fc0448b044f9,
  0x44b1045270452604525044b5045230452204521044ae0451f0451e0451d044aa0451b0451a04519044b7045170451604515044a0045130451204511,
  0x4540045fa0453f0453d044c80453b0453a044d604539044cf04536045380453504533044cb04531045300452f0453400c59044f10452b0452a04529,
  0x45580455700c580451a045540455304552044da045500454f0454e044de0454c0454b0454a044d7045480454704546044d304544045430455b0451b,
  0x45700456f044ff0456d0456c0456b044fb045690456804567044f60456504564045630457b044f0045600455f0455e044fc0455c0456100c570451e,
  0x4588045870451d045850454104584045820450c045800457f0457e045420450c00c560453f045790457804577045030457504574045730450404571,
  0x45290459f0459e0459d0452d0459b0459a0459904526045970459604595045220459304592045910452f0455a045560458f0458c0458b0452304589,
  0x4546045b7045b6045b504545045b3045b2045b10453c045af045ae045ad04549045ab045aa045a904543045a7044ef00c5504569045a3045a2045a1,
  0x45d10455e045ce045c7045cd045cb04558045c9045c800c530458b045c5045cf045c404553045c1045c2045c000c5404582045bc044ee045bb045b9,
  0x45e804584045e6045e5045e40457e045df045e2045e00467300c52045a2045dc045db045da04562045d8045d7045d604566045d4045d3045de045d2,
  0x4601045ff045fe0458b045fc045fb0436500c51045bd045f7045f6045f504582045f3045f2045f10469304581045ee045ed045ec04577045ea045e9,
  0x46180461704616045a8046140461304612045a8046100460f0460e0452d04599044b20460b0460904608045a2046060447b04605046030459d04364,
  0x44e0046300462e045bf0462c0462b0462a045c8046280462704626045bc04624044ec00c50045e6046200461f0461e045aa0461c0461b0461a045b4,
  0x4648045d50464d046460464404643045e1046410464004645046110463d0463c0463b045d5046390463804637045ca046350463404633045cb04631,
  0x46250465f0465e0465d045f00465b0465a04659045f70463e04657046550463f04654045dd04651046500464f045dd00c4f00c4e046100464a04649,
  0x4678046210461e0467504676046740467304671046020466f0466e0466d045f50466b0466a04669045f904672046670460104664046650466300c4d,
  0x46550468f0468e0468d0461a0468b0468a046890461904687046860468504610046830469204682046800461c0467e0467d0467c046160467a04679,
  0x46a8046a704643046a5046a4046a3046b80463d046a00469f0469e046470469c0469b0469a046340469804697046960463004694046de046a100c4c,
  0x46c0046bf046be0465a046bc046bb046ba046540466200c4b0467b046b5046b4046b304640046b1046b0046af0463f046ad046ac046ab04636046a9,
  0x4666046d0046d7046d5046d404672046d2046d100c4a04694046ce046cd046cc0465904691046ca045ef046c8046c604656046c4046c3046c20464d,
  0x46b804467046ef046ed046ec04679046ea046e9046e804678046e6046e5046e4043de0466f043c204349046e10430300c49046a1046db046da046d9,
  0x46cd00c6b00c46046ca0470400c6c00c47046c604700046ff04302046fe0468a046f4046fb046f9046f804696046f6046f500c4804661045be044db,
  0x47200471f0471e046af0471c0471b0471a046b8047180471704716046a9047140471300c43046d604710045040470f00c44046d10470b0470a00c45,
  0x46c9047370473600c40046f90435d042f10473304730042bd0472f046ca0472c0472b00c41046ee047280472700c42046ea047240472304722046ad,
  0x47150474f0474e00c3d047110474b0474a00c3e0470d04747047460471200c3f0470d047080474104740047260473f04709046c90473b0473a04739,
  0x46f8047670476604765046f4047630475c047620477c047e70475e0475d00c3b047200475a0475904758046e40474d0475604754047350472a00c3c,
  0x47490478a047110477d0477e0475300c3a0473e04745047780477604775046fc047730477204771047010476f0476e0476d046fa0476b0476a04769,
  0x479804797047960472104794047930479f04737047900478f047b70478d0478e0471a0478c00c390474d04787047860478504710047830478204781,
  0x42f900c3704773047ad047ac047ab0473804791047a9047a7047a604731047a4047a3047a20473a047a00479200c38047620479c0479b0479a04727,
  0x47c80475b047c6047c5047c404762047c2047c1047c00474a047be042f4047bd047bb04749047b9047b8047ea04839047b5047b4047b30473f047b1,
  0x47e00477a047de047dd047dc04767047da047d9047d804776047d6047d5047d40476e047d2047d1047d00475d047ce047cd047cc04784047ca047c9,
  0x47b3047f7047f6047f504788047f3047f2047f104784047ef047ee047ed04777047eb04810047e900c36047ac047e6047e5047e404771047e2047e1,
  0x47d50480f0480e00c35047d10480b0480a048090479c048070480604805047a30480304802048010478b047ff047fe047fd0478b047fb047fa047f9,
  0x48280482704826047b3048240482304822047bc048200481f0481e047a90481c0481b0481a047b8048180481704816047b00481404813048120479f,
  0x484004857047cc0483d0483c0483b047d2048390483800c33047fb048350483404833047c00484904831047c70482e0482f0482c0482d00c34047ee,
  0x4858047f2048560485500c310481804852048510485004789047e20477b0475f0484d0484a0476000c320480c048460484504844047d00484204841,
  0x48700486f0486e047fc0486c0486b0486a04824048680486704866047f104864048810486304861047f20485f0485e0485d048620482a047fb04859,
  0x4824048870480d04886048840481704882047e8047b6047b700c30048420487c0487b0487a0480d04878048770487604814048740487304872047fc,
  0x48a00489f0489e048290489c0489b0489a048310488d0489804896048970489400c2f0485704891048900488f0485404837048290488b0488a04889,
  0x48b800c290487b048b5048b400c2d04877048b1048b0048af0483c048ad048ac048ab0483b048a9048a8048a7048c304837048a4048a500c2e04866,
  0x48d0048cf048e6048ce048a20486a0486b00c2a048ca048c70430e00c2b048890430f00c2c04886048c0049060485b048bf048bd048bc048bb048c9,
  0x48e8048e7048b3048e5048e4048e30487e048e1048e0048df0486c048dd048dc048fa04897048d9048d800c280489b048d5048d4048b3048d30485f,
  0x4895048ff048fe048fd04890048fb048da048db00c25048bc048f6048f5048ef00c26048b7048f1048f000c2700c22048b2048ec048eb048ea04870,
  0x491804917049a50495104915049410491304911049120490f00c23048d20490c0490b0490a0489004908049070491c00c24048c9049030490204901,
  0x49300492f049360492d00c1f048f00492a049290498c04928048b404925048f404924049270492104922048b7048ad0491e0491d0491b0493f04935,
  0x4948048e2049460494504944048d5049100494204941049400493e048cb0493c0493b0499c0493a04939048c904937048c6049340493304932048cd,
  0x4960048ed0495e0495d0495c048fa0495a0495904958048e3049560495504954048ed0495200c2100c1e049140494e0494d0494c048d90494a04949,
  0x497804977049760490304974049730497200c2000c1d049340496e0496d0496c048f40496a0496904968048f8049660496504964048f10496204961,
  0x49900498f0498e04929049a200c1b0494f0498904988049870491d04985049840498304910049810498000c1c049430497d0497c049140497b04915,
  0x49ad04c20049a804c0200c19049a404968049a1049a00499f049190492a00c1a049600499a0492c049990491a049970492104994049930499204922,
  0x49c000c1804983049bd049bc049bb04946049b9049b8049b704943049b5049b4049ed049b304915049a7049ce049ae049af049ac0492e0497f0493c,
  0x496a049d7049d800c16049d5049d604999049d1049d0049cf0495e049cd049cc049d304965049c9049c8049c70495e049c5049c4049c30495f049c1,
  0xc14049b4049ee049b200c15049b0049ea049e9049e80496f049e6049bf049e5049e304a2704973049e004c69049df049dd049de049db00c170499e,
  0xc0f049cc04a0600c1104a05049c904a030499a04a00049ff04a1c049ab049fc049fb04a02049f900c12049bc049f6049f500c13049b8049f2049f1,
  0x49ae04a37049fd04a1f049bd04a0a049fe04a1b04a1800c10049db04a1504a1404a13049a504a1104a1004a0f049a5049f004a0d04a0b049d2049cb,
  0x4a3804a3f04a3604a4b00c0d049f804a3204a3104a30049c4049f804a2e04a2c04a2b049f4049b804a2804a9904a2600c0e049e904a2304a2204a21,
  0x4d5c04a5104d4104a4e04a4d04a4c049e504a4904a4804a7304ce204a4504a44049cf04b3504a4204a4104a4004cab04a3d04a3c04a3b049c804a39,
  0x4a6804a6704a66049f304a6404a6304a62049ef04a6004a5f04ac504a8304a5c04a5b04d4c04a5a049e704a57049e404a5504a5404a53049ec04a56,
  0x4a8004a7f04a7e04a0904a7c04a7b04a7a04a1304a7804a7704a7604a1004a7404a9200c0c04a3604a7004a6f04a6e049f604a6c04a6b04a6a049fa,
  0x4a9800c0b04a5b04a9504a9404b5904a9304a1a04a9004a8f04a8e04a1e04a8c04a8b04a8a04a1704a8804a8704a8604a1304a8404a8304aee04a8c,
  0x4b1704ab504aae04aad04aac04a3704aaa04aa904aa804a4104aa604b6504aa504aa304a3d04aa104aa004b4104b3e04a9d04a9c04a9b04a3304aa4,
  0x4ac804a5e04ac604a5e00c0a04a8804ac204ac104ac004a4804abe04abd04abc04a4c04aba04ab904ab804a4504ab604ab504ab404a4104ab204ab1,
  0x4a6e04adf04ade04add04a6a04adb04ada04ad904a9704ad704a5d04ad604ad404a5f04ad204ad104ad004a6704ace04acd04acc04a6404aca04ac9,
  0x4a9004af704af604af504a8d04af304af204af104a8704aef04a8200c0904ab104aeb04aea04ae904a7104ae704ae604ae504a7504ae304ae204ae1,
  0x4b1004b0f04b0e04a9e04b0c04b0b04b0a04a9704b0804b0704b0604a9304b0404b0304b0204aa004b0004a8104aff04afd04a8804afb04afa04af9,
  0x4aaf04b2804b2604ab104b2404b2304b2204ab904b2004b1f04b1e04ab604b1c04b1b04b1a04ab004b1804ab000c0804ada04b1404b1304b1204a9a,
  0x4b4000c0704b0304b3d04b3c04b3b04ac304b3904b3804b3704ac704b3504b3404b3304ac004b3104b3004b2f04abc04b2d04b2c04b2b04ac904b29,
  0xc0604b1c04b5604b5504b5404ae404b5204b5104b5004adb04b4e04b4d04b4c04ad804b4a04b4904b4804ad704b4604b4504b4404ae204b4204bac,
  0x4b7004afd04b6e04b6d04b6c04b2a04b6a04b6904b6804af304b6604b6504b6404afb04b6204b6104b6004b7804af804b5d04b5c04b5b04af104b5e,
  0x4a7204b8804b1f04b8504b8404b8304a4700c0504b4504b7f04b7e04b7d04b0504b7b04b7a04b1904b7904b0804b7604b7504b7404b0104b7204b71,
  0x4ba004b3004b9e04b9d04b9c04b2904b9a04b9904b9804b2504b9604b9504b9404b3204b9204b9104b9004b1b04b8e04b8d04b8c04b2304b8a04b89,
  0x4bb804bb704b4e04bb504bb404bb304b4b04b3f04bb104baf04bae04b4404a9e04a9f00c0404b6e04b5804ba804ba604ba504b2d04ba304a4604ba2,
  0x4bd004bcf04b5704bcd04bcc04bcb04b5b04bc904bc804bc704b5404bc504bc404bc304b5004bc104bc004bbf04b5d04bbd04bbc04bbb04b4604bb9,
  0x4be804b7804be604be504be404b7104c2c04bca04be204bdf04bde04b6b04bdc04bdb04bda04b7804bd804bd704bd604be004bd400c0304b9704bd1,
  0xc0204bc404bfe04bfd04bfc04b8704bfa04bf904bf804b9104bf604bf504bf404b8e04bf204bf104c0104b9404bee04bed04bec04b7404bea04be9,
  0x4c1804c2204c1600c0104bd904c1304c1204c1104b9c04c0f04c0e04c0d04ba404c0b04c0a04c0904ba104bef04c0704c0504c0404b9a04c0204bf0,
  0x4c3100bfe04bf304c2d04c1700bff04bef04c2904c2804c2704bc004c3f04c2404bba04c7104c2504c2100c0004be304c1d04c1c04c1b04ba804c19,
  0x4c4804c4704c4604be004c4404c4304c4204bd404c4004c4a04c3e00bfd04c0104c3b04c3a04c3904bc504c2f04c3704c3504c3404bbe04c3204be1,
  0x4c6004c5f04bea04c5d04c5c04c5b04be704c5904c5804c6504c0204c5504ccd04c5400bfc04be504c1604c4f04c4e04c5004c4c04c9104c4d04bd6,
  0x4c7804c0504c7604c7504c74049a604c0e049a700bfa04c3404c6e04c6d04c6c04bf904c6a04c6904c6804c0604c6604c5604c5700bfb04c2704c61,
  0x4c1e04c8f04c8e04c8d04c4b04c8b04c8a04c8904c1404c8704c8604c8504c1e04c8304c8204c8104c1b04c7f04c7e04ca204c5504c7b04c1f04c7a,
  0x4c7c04ca804ca604ca504c3b04ca304c7d00bf904c6504c9f04c9e04c9d04c2504c9b04c9a04c9904c2904c9704c9604c9504c2204c9304c9204c91,
  0x4cc004cbf04cbe04c4b04cbc04cbb04cba04c4704cb804cb704cb604c7404cb404cb304cb204c3d04cb004caf04cae04c4504cac04cab04caa04c42,
  0x4a2504cda04cd604cd504c6f04cd304cd204cd104c6904ccf04cce00bf7049e1049fa00bf804c8e04cc804cc704cc604c4e04cc404cc304cc204c52,
  0x4cf004cef04cfd04cd504d5204cec04cea04d5700bf300bf404ce804ce504c3d04cac00bf504c5204ca604cdf04c1504cde00bf604ca004bd304a97,
  0x4d0804c9604d0604d0504c9a04d0304d0204d0104c9104d2604cff04cfe00bf204cc004cfa04cf904cdc04c4b04cf804c8304cf404cf304cf204c7f,
  0x4cae04d1f04d1e04d1d04cb704d1b04d1a04d1904a3e04caa04d0f04d1604d1504d1304d1204ca204d1004d1404d0f04d0e04d0d04c9604d0a04d09,
  0xbee04cee00bef04cfa04d3404d3300bf004cf604d3004d2f04d2e04cfc04cbb04d2b04d2a04d2904d2c04cc704d2700bf104ce904d2304d2204d21,
  0x4d1504d7604d4f04d4d04de000bec04d3904d4b04d4800bed04d0b04d4504d4404d2504d4304cd804d4004d3f04cfc04d3e04cca04d3b04d3a04ced,
  0x4d6804d6f04cf900be804d7a04d2904d6504da504d6100be904d2304d5d04d6004d3200bea04d1e04d5804d5704d5604ce304d6204d5404d5300beb,
  0x4d8500bdf04d8204d4304d7d04d7c04d8c04d7904d4504dca04d7804d0304d7404d7304d7704d7204d7100bda04d3304d6d04d6c04d6b04d0704d69,
  0x4d9f04d2504d9000be404d5904d9304d9604d9204d9100be504d5304d8e04d8d04d8b00be600bdd04d4e04d4d04d8604d8704d9804d3304d8400be7,
  0x4db004daf04d3f04d8a04dad04d8104a4f04d8304dab04da704d3404a5000be204d6804da204da104db900be304d6304d9d04d9c04d9b04d2b04d99,
  0x48b900be004d8b04dc504dc404dc304d5704d5f04d5104dc104dbe04dbd04d4d04ceb04dbb04d0400be104d7c04d5b04db604db404db304d4704db1,
  0x4e070405f04d6f04ddd04ddc00bd804df204d9f04dd804d6704da004dd704dd604dd304d6304dd404d5c04dcf04dce04dcd04d8f04d5d00bd904d7b,
  0x4df804df704e6d04e1104df404df304d7f04a3404dfa04def04d890498b04ded049050491004deb04de804d8204de604de5042f80423504de40405e,
  0x4e1004e0f04e1a04e0d04e0e04d9e04e0a04dab04e0804e0904e6004e0504da300bd704e0304e0104e0004d9704dfe04dc704dfd04dfc04dfb04d86,
  0x4e2804e2700bd504dea04e2404e2304e2204daf04e2004e1f04e1e04dab00bdc04e1c00bd604dde04e1804e1704e1604da204e1404e1304e1204dac,
  0x4e4004e3f04e5304e0004e3c04e3b00bd404dfe04e3804e3704e3604dc104e3404e3304e3204dbe04e3004e2f04e2e04dc804e2c04e2b04e2a04db4,
  0x4e5804e5704e5604df404e5404e3a04e2604e3d00bd104e1404e4e04ddf04e4d00bd204e0604ddb00bdb04e0f04e4604d4e04d6704e4500bd304e06,
  0x4e7004e0704e6e04e4b04e4200bcf04e3e04e2f04e6804e67048b704e6600bde0429c04df204e610408603f8100bd004e2204e5c04e5b04e5a04de7,
  0x48c604df5048d704893042ee042be0424c041d3041e503f8004e8800bce04e4104e7b04e7a04e7904e0604e7704df604e7604e7404e1204e7204e71,
  0x4e3204e9f04e9e04e9d04e2804e9b04e9a04e9904e2604e9704e9604eb204e7d04dd204d4704ce404ce904e4c04a17049da049ab0490e0491604e8e,
  0x4e7d04eb704eb604eb504e6f04eb304e9500bcd04e7504eaf04eae04ead04e3b04eab04eaa04ea904e3704ea704ea604ea504e3f04ea304ea204ea1,
  0x4ed004ecf04e5b04ecd04ecc00bc804e8f04ec90409d00bc604e8b04ec504ec404ec304e5204ec104ec004f57050c604ebd04ebc04e940409700bcc,
  0x4ecc04ee704ec304ee604ee404e7404ee504ee204ee004edf04e6a04edd04edc00bc504e9f04ee100bc70409c04e9c04ed504ed404ed304e6d04ed1,
  0x4e9404eff04efe0516d0515d04efb04efa051db0604304ef704ef604ecb04e9404ef304ef204ef104e7904eef04eee04eed04e7d04eeb04eea04f08,
  0x4f1804eb604f1604f2204f1404edb04e9f04f1104f1004f0f04ea804f0d04f0c04f0b04ea504f0900bc400bc304ecb04f0504f0404f0304f1504f01,
  0x4f3104f2f0407e00bc104ef104f2b04f2a04f2904eb804f2704f2600bc204ee904f230514a04f210520605f2f04f1e04f1d00b9a04ee004f1a04f19,
  0x4f4804f4704f6004ef004f4404f6404f2504f4200bc004f0404f3e04ed804f3d0409604f3b04ee804ec70407d04f3704f3504f3404ece04f3204ee9,
  0x4f4600bbe04f2304f5d04f5c04f5b04ee104fb704f5904f5800bbf04f1a04f5404f5304f5204ef004f5004f4f04f4e04ee004f4c04f4b04f4a04edc,
  0x4f7804f7704f9200bbc04f3904f7304f7204f7104f0804f6f04f6e04f6d04ef904f6b04f4504f6a04f6804f3204f6604f0604f6500bbd04f2704f61,
  0x4f9004f8f04f1904f8d04f8c04f8b04f1704f8904f8804f8704f2504f8504f8400bbb04f4704f8104f8004f7f04f0a04f7d04f7c04f7b04f0b04f79,
  0x4fa804fa704f3804fa504fa404fa304f4104fa104fa004f9f04f3a04f9d04f9c04f9b04f3504f9904f980500804f9604f2304f9704f9404f2104f91,
  0x4f5704fbf04fbe04f8d04fe204fbc00bca04fba04f7d00bba04f7b04fb504fb404fb304f4d04fb104fb004faf04f4204fad04fac04fab04f4304fa9,
  0x4f7504fd704fd604fd504f7304fd304fd204fd104f6004fcf04fce04fcd04f7904fcb04fca04fc904f5b04fc704fc604fc504f4f04fc304fc204fc1,
  0x4ff004fef04fee04f7f04fec04feb04fbb04fea04f7f04fe704fe604fe504f7804fe304fbd00bb904fa504fdf04fde04fdd04f7704fdb04fda04fd9,
  0x502400bb704fcb050050507004f950500405002050010500000bb804fc204ffc04ffb04ffa04f9304ff804ff704ff604f8304ff404ff304ff204f7d,
  0x50200501f04faf0501d0501c0501b04fa805019050180502304ff3050150501400bb504fd705011050100500f04f9f0500d0500c00bb604fcf05009,
  0x50380503704fc205035050340503304fbf0503105030050580502e0509304fbc00bb20502b05029050990503404fef050260502500bb404fe705021,
  0x50510504f04fda0504d0504c0504b04fdb050490504800bb00500b05045050440504304fd005041050400503f04fd50503d0503c00bb104fff05039,
  0x506800bac0502b050650506400bad0502d05027050600505f0505e04fea0505c0505b0505a04fe4050160501700baf0501a050470503b050540502f,
  0x50800502f0507e0507d0507c050080507a05079050ca050780500105077050040507505073050720507100baa050330506d0506c00bab0502f05069,
  0x502800ba80505b0509505094050af00ba905056050900508f0508e0501a050670508c050630508a0508805012050860508505084050170508205081,
  0x50b1050b0050ae050ad05037050ab050aa050a90503c050a7050a60506b050a505033050a2050a100ba7050640509e0509d0509c050290509a05027,
  0x508d050c7050c6050c505051050c3050c2050c105054050db00ba6050bf05082050bc050bb050b9050ba05052050b8050b6050b4050d60507105042,
  0x50e0050fb05097050e4050dd050dc050da05073050ef050d8050b300ba405099050d3050d7050d2050d0050d10506b05069050cd050cc050cb00ba5,
  0x50bd050fc050f7050f500b9e050b8050f4050f20507f050f000ba2050b2050ec00ba0050af050e9050eb050e800ba3050aa050e605071050b2050e2,
  0x51100510f00b9d00b9f050de050d10510a0510905108050940510605105051040509405102050d205101050ff0508e05100050fd050df04f6300ba1,
  0x4ebf0512d050e705092050a00512605007050b500bb3050130500b0512004f7504f8304f40040790511c0407a05117050ac0511405113051120509d,
  0x513c0510e051400513d050ee00b9c050c9050ff05138051370506f05136050c405133051320513104ffe050cf0512e04fb804f56050f604ebe050be,
  0x5158050f405156051550610c06472051520515100bae050e90514e0514d0514c050e800b9b0510e051480514705146050d5051440514305142050e0,
  0x517e050fa0516e0518c0516c00b990512f05169051680516705101051650516405163050ee05161051600515f051700515d0515c050e60515a05159,
  0x51880518705186051200518405183051820510d051800517f060c3060ff064550517b00aaa0513e051780517a060c205110051740517305172050fd,
  0x51970513c0519e0519d00b95051600519a051bd051990512300b960515a051940519300b9705156051900518f0518e05126051960518b00b980514e,
  0x5140051b7051b6051b505145051b3051b2051b10513e051af051ae00b9305171051ab051aa051a905135051a7051a600b9405169051a3051a2051a1,
  0x51d00516305192051ce0516b051ad051a5051cc00b910518c051c6051c50519c051c40515004efc04efd051c1051be00b9205181051bb051ba051b9,
  0x51e9051de00b8e051aa051e4051e3051e205171051e0051df051e705173051dc051fb051da00b8f0519d051d7051d600b9005199051d30518a051d2,
  0x51ac051ff051fe0523b0520305218051fa051f900b8b051bc051f6051f500b8c051b8051f2051f1051f00517f051c8051ee051ec051eb0517d051dd,
  0x521805217051a8052150521405213051a305211052100520f0519c051d50520d0520b0522a0520a052c4052080520700b8a051c905203052020521b,
  0x52300522f0526c0522e051c80522b0522d00b88051ed052270522605225051b6052230522205221051b105200051f4052010521f00b89051df05219,
  0x524805247051da052450524405243051d905241052400524c0523f051d90523c0523e00b87051fe052380523705236051c9052340523305232051c8,
  0x5260051eb0525e0525d0525c051ec051f50525a0525800b850521b052550525405253051eb0525105259052500524e051df0524f00b860520f05249,
  0x529d053f7052760527500b810523a0523805271052090527000b82052320520a00b830522f051fc052690526705266051fd00b84052280526205261,
  0x52900528f054510528d0521a0528b0528a00b800524d052870528605285052290521c052820528105257052800520b0526e0527d0527b0527a0524b,
  0x52a8052a7052c505234052a4052a3052a20522f052a500b7e052a0052630529c0529b0529a0522e0529805297052ac052430529405293052920521f,
  0x52c00524b052be052bd052bc0524c052ba052b900b7b0527c05295052b6052b4052b30523b052b100b7c052b005274052ad0529600b7d0526f052a9,
  0x52d8052d70526d052d5052d4052d30525e052d1052d0052cf0526d052cd053d1052cc052cb05389052c9053b205253053b600b7a05288052c2052c1,
  0x5287052ef052ee052ed05288052eb052ea052e905283052e7052e605312052ae00b8d05306052e1052e0052df05279052dd052dc052db05264052d9,
  0x52a5053070530605305052a305303053020530105290052ff052fe052fd052a9052fb052fa052f90528b052f7052f6052f50527f052f3052f2052f1,
  0x53200531f0533b052d70531c0531b0531a05354052b0053170531605315052ac053130531800b79052d50530f0530e0530d052a70530b0530a05309,
  0x53380533705336052d0053340533305332052ce053300532f0532e052cc0532c0532b0532a052b9053280532705326052d2053240532305322052b6,
  0x53500534f052e90534d0534c0534b052e70534905348053470531d052e5053440534305342052d1053400533f0533e052ea0533c0531e00b78052fe,
  0x5368052ff0536605365053640530f053620536105360052e60535e053110535d052e40535b052e7053580535705356052f0052e500b770531705351,
  0x53800531c0537e0537d0537c0531a0537a05379053780530705376053750537405320053720537105370053010536e0536d0536c053020536a05369,
  0x53980539700b750535a0539405393053920531b05390053ae0538f0538d053230538b0538a0538e00b760534c0538605385053840531e0538205381,
  0xb730534805374053ad053ac05399053ab0533c053a80539a00b740536a053a4053a3053a20532f053a00539f0539e0533c0539c0539b053a705341,
  0x53c805355053c6053c5053fd053b5053c205433053c1053c0053bf0541e05359053bb053ba053b905353053b7053b6053b505340053b3053be053bc,
  0x53e005398053de053dd053dc05369053da053d9053d805372053d6053d5053d40535f053d2053d1053d00536e053ce053cd053cc05366053ca053c9,
  0x53f805385053f6053f5053f40538e053f2053f1053f00537b053ee053ed053ec0538a053ea053e9053e805382053e6053e5053e405371053e2053e1,
  0x53ab0540f0540e0540d053c00540b0540a05409053950540705406054050539105403053c305402054000539a053fe053c400b72053c0053fa053f9,
  0x5428053b9054260542505424053ba054220542105420053d3052ca00b71053e10541b0541a05419053a5054170541605415053a1054130541205411,
  0x54400543f00b6f054020543c0543b0543a05277053c5054370543605435053c100b7f00b70053f6054300542f053b00542e053c70542b052c60542a,
  0x54590545700b6b0541a00b6c054180545205454054500546e054450544d0544c00b6d0540f05449054e7053e40544805446054450544400b6e05406,
  0x53880548b0547000b6805431053960546b0529f0546900b690542b05465054640544e054620546105497054380545e0545d052b800b6a0541f0528e,
  0xb660544c054860548500b67054480548205481054800540b0547e0547d0547c0540d0547a0547905478054160543e0547605474054730540605471,
  0x54600546d05465054670549d0549b00b630545e0549800b640545b0549505494054840549305463054240548f0548e0548d054230544f00b65054a2,
  0x54ba054b705444054b5054b4054cc00b6005476054b0054af00b610545f0547205456054ab054b305436054a7054a6054c405489054a3054a900b62,
  0x54d000b5c05493054cd05474054a500b5e0548e054c8054c7054c6054cb05453054c3054c2054c10544e054bf054be00b5f05481054bb0549a0544e,
  0x54e800b59054ab054e5054e400b5a054a7054fa00b5b00b5d054a3054dd054dc054db05468054d9054a1054d8054d6054ae054e1054d3054a4054d1,
  0x548e054ff054fe0551c055ba054fb054a4055040547f054f7054f6054f50550a05491054f2054f100b58054b4054ee054ed054ec054bd05472054e9,
  0x54a6055170551600b56054d9055130551205511055640563e055270565900b570550c054e3054d2054d0054cf05507055050549e055030550205501,
  0x55300552f0552e054c70552c0552b055f80559205528055310552605525054b20553500b55054e6055200551f0551e05523054ab0551b0551a05519,
  0x554805547054d4055590554505543055830552105544055400553e05567055b40553b0553a0555400b53054fc055360553800b540553d054f8054be,
  0x55600555f054fa0555d0555c0555b054f1055fc055580552805556054ee0555505553054db05551055500554f054df0554d0554c0554b054d805549,
  0x5578055770557605503055740557305572054ff055700556f055ac0554a0556c0556b0556a054f5055d505568055660562400b5100b410552705561,
  0x55900558f0558e055250558c0558b0558a055220558805587055860551c055840554200b5005546055800557f0557e055060557c0557b0557a0550a,
  0x55a8055a70552f055a5055a4055a305533055a1055a00559f0552c0559d0559c0559b0552805599055980559705535055950554105594055920551d,
  0x55c00555e055be0556d055bd055bb05546055b9055b8055b70554e055b5055b4055b30554b055b1055b0055af05545055ad0556e00b4f0556f055a9,
  0x55d800b4d0559b055f000b4e05598055d2055d1055d005558055ce055cd055cc0555c055ca055c9055c805555055c6055c5055c405551055c2055c1,
  0xb5200b4b055b3055ed055ec055eb05576055e9055e8055e705578055e5055e4055e305581055e1055e0055df05572055dd055dc00b4c0559f055d9,
  0x5608056050560700b47055c9056030560205601055220552905593055fd054fd00b48055bf055f90552a00b49055bb055f5055f400b4a055b7055f1,
  0x5539054fc00b43055e205515055650561c0561900b44055dc056160561505614055aa056120561100b45055db055d4055d70560d0560b00b46055ce,
  0x55cd05637056360564905635055d20563205631056340560a0553405630055c7055f30562b05629055d4056280553c055b400b42055e80562205621,
  0x56500564f055e80564d0564c056940562305653055d60561005647056200564505643056180560005656056400566900b40056010563b0563a05639,
  0x5668056670566605dcc055fa056630566205661055ff0565f0565e0565d056640565b055f7055f705659056580568b056550565700b3d0561705651,
  0x56800567f0561d0567d0567c0567b0560a056790567805677056230567505674056730560b05671056700566f056000566d0566c0566b0568c05601,
  0x564a0588d059ce056950564b0569a00b3e05656056900568f0568e0562705c7000b3f0564f056890568805687056210568505684056830561f05681,
  0x56b00563a056ae056ad056ac05639056aa056a9056a805640056ba056a6056a4056a305634056a5056a10569f056d1056610550f056e60569c05699,
  0x550e0565c056c605656056c505c9f056c2056c1056c00564d056be056bd05d0805cbd056c4056b9056b805649056b6056b5056b40564e056b2056b1,
  0x5670056df056de056dd0567b056db056da056d9056950569d056d7056d5056d405663056d20569e00b390569405654056ce056cc056cb0563d05cdb,
  0x56f8056f7056f605689056f4056f3056f20568f056f005701056ee056ef056ec05676056ea056e9056e805678056ed00b38056a9056e3056e2056e1,
  0x57100570f0570e056a40570c0570b0570a05695057080570705706056930570405703057020569c05700056ff056fe056a7056fc056fb056fa05694,
  0x57280572705726056b3057240572305722056c0057200571f0571e056db0571c0571b0571a056ad057180571705716056b4057140571305712056ae,
  0x57400573f056d00573d0573c0573b056d5057390573805737056c905784056c205733057350573105730056ca0572e0572d057480573200b37056ee,
  0x571d057570575605755056e8057530575205751056ef0574f0574e0576e0574d00b3a056d6057490574c00b360570b057450574405743056ce05741,
  0x5770057060572c00b34057310576b0576a057690570305767057660576505700057630576205761056f40575f0575e0575d056f30575b0575a00b35,
  0x57880572205786057850578b00b330574705781057800577f0570b0577d0577c0577b057470570605778057770577605702057740572b0575905773,
  0x57a9057f60579e0579d0579c057290579a0579905798057320579605795057940571f057920579105845057900578f057180578c0572d0578a05789,
  0x57b805742057bf00b3105779057b3057b2057b105744057af057ae057ad0574b057ab057b6057aa057a805732057a6057a5057a405732057a2057a1,
  0x57d0057cf057ce05758057cc057cb057ca05758057c8057c7057c605780057c4057c3057c205769057c005755057be057bd057bc0574f057ba057b9,
  0x57e8057f805781057e5057e705782057e2057e1057e00577a057de057dd057dc057e400b300579e057d8057d7057d605769057d4057d3057d205770,
  0x58000578c057fe057fd057fc05788057fa057f90580100b2f057bb057f5057f4057f305780057f1057f0057ef05789057ed057ec057eb05776057e9,
  0x57a4058170581605815057a605813058120581105832057af0580e0580d0580c0579f0580a0580f0580900b2e057cb05805058080579a0580205804,
  0x57f50582f0582e0582d057c00582b0582a05829057c7058270582605825057af058230582205821057af0581f0581e0581d057d70581b0581a05819,
  0x5848057da058460584c00b2c057da0580805841058400583f057b50579f057a0057d90583a0583905838057d3058360583505834057c700b3200b2d,
  0x58600585f057e70585d0585c0585b057eb05859058580587905833058550585405853058b805851057e205850057e90584d0584f057f7058070584b,
  0x585700b2b0583b0587505874058730580205871058700586f058010586d0586c0586b057f50586905868058670581e058650586405863057f405861,
  0x5890058210588e058ba00b2a058500588a05889058880581b058860588505884058220588205881058800580a0587e0587d0587c0580a0587a05856,
  0x58af05851058a6058a500b2705868058a200b2900b28058640589e0589d0589c058270589a0589905898058280589605895058a1058650589205891,
  0x58c0058c20584a058bd058bc05a0a0590e058a7058bf00b240587b058ad058a7058a800b2505876058b0058b5058ae00b260587105893058ab058a9,
  0x58d8058d7058d605874058d4058d3058d205868058d0058cf058ce0585b058cc058cb0589405923058ca05873058c6058c8058c4058c5058c30585c,
  0x58f0058ef0588d058ed058ec058f1058bd058e9058e8058e705881058e5058e4058e305876058e1058e0058df05877058dd058a4058dc058da0586b,
  0x589c059070590605905058a3058ea0590305901058eb0590005889058fd058fc058fb0588900b2300b22058bc058f6058f5058f405881058f9058f2,
  0x59200592c0591f058a80591c058b90591b05919058a705917059160591e059470591305912059110589d0590f058bb00b21058d10590b0590a05909,
  0x58e40593805937058d5059340593305932058cc059300592f0592e058bb0593500b1f058ef059290592805927058ba059250592405923058c105921,
  0x59500594f0594e058da0594c0594b0594a0595200b1e0590c059460594505944058d1059420594105940058da0593e0593d0593c058c70593a05939,
  0x59680596705966058f705964059630596205983059000595f0595e0595d058f00595b059600595a00b1d0591c05956058f0059550595405953058de,
  0x59800597f0597e059110597c0597b0597a059180597805977059760590005974059730597205900059700596f0596e059280596c0596b0596a058f5,
  0x5998059970599d00b1b0592b05959059920599105990059140592a059150598d0598b0598a05925059880598705986059190598400b2000b1c05946,
  0x59e9059a1059ae059ad059ac05947059aa05a22059a905943059a705940059a4059a6059a2059a3059a10592d0599e059a005948059580592805999,
  0x59c805955059c6059c5059c40595e059c2059c1059c00594b059be059bd059bc0595a059ba059b9059b805952059b6059b5059b405941059b2059b1,
  0x59e00597a059de059dd059dc05967059da059d9059d805976059d6059d5059d40596e059d2059d1059d00595d059ce059cd059cc05984059ca059c9,
  0x59ac059f7059f6059f505981059f3059f2059f10597d059ef059af059ee059ec05986059ea059b000b1a059ac059e6059e5059e405971059e2059e1,
  0xb18059d405a0e05a0d05a0c059a200b3b00b19059cd05a0705a0605a050599105a0305a0205a010598d059ff059fe059fd05997059fb059fa059f9,
  0x5a2805a27059c305a2505a2b05a2400b15059e605a1805a1305a1400b16059e105a1b05a2005a1900b17059dc05a1605a1505a1a059bc05a1205a11,
  0x59cd05a3f05a3e0588c05a3d059d605a3a05a850569605a3805a39059c005a35059cf05a3205a3405a3005a3105abe05a5805a2c05a2e059c505a29,
  0x5a5805a57059ea05a5505a5405a53059f105a5105a5005a4505a4f059d805a4c05a1005a4b05a49059d705a4705a4600b1405a0905a4305a4205a41,
  0x5a7005a2a05a6e05a6d05a6c059f705a6a05a6905a68059f905a6605a6505a6405a0205a6205a6105a60059f305a5e05a5b05a5d00b1305a1f05a59,
  0x5a8805a2205a8605a8c00b1205a4805a8205a8105a8005a1305a7e05a7d05a7c05a1a05a7a05a7905a7805a0205a7605a7505a7405a0205a7205a71,
  0x5a5b05a9f05a9e05a9d05b1105a3705a9b05a9a05a9905a9805a2205a9605a2105a9305a9505a9105a9205b8505b1305a8d05a8f05a1905a8a05a89,
  0x5a4405ab705ab605ab505a4605ab305ab205ab105a4b05aaf05aae05aad05a3f05aab05aaa05aa905a4305aa705aa605aa505a3805aa305aa205aa1,
  0x5ad005acf05ace05a7905acc05acb05aca05a5505ac805ac705ac605a5d05ac405ac305a2d05ac205a5905abf05a2f00b1105a8105abb05aba05ab9,
  0x5ae805ae705ae605a7905ae405ae305ae205a7a05ae005adf05ade05a6f05adc05adb05ada05a7805ad805ad705ad605a6c05ad405ad305ad205a5f,
  0x5b0005aff05afe05a8c00b1000b0f05abf05af905af805af705a8405afc05af505af305af205a9005af005aef05af405ac005aec05aeb05aea05a84,
  0x5b1b05b1705aa405b1505b1405b1305ab105b1800b0e05ad405b0e05b0d05b0c05a9f05b0a05b0905b0805aa605aed05b0605b0405aee05b0305a8c,
  0x5af405b2f05b2e05b2d05ab705b2b05b2a05be505b2805b2905b2705ad305b2505b2405ab705b2205b2005aba05b2105b1d05b1e05b1c05ab105b19,
  0x5ad305b4705b4605b4505ad305b4305b4200b0d05b0505b3f05b3e05b3d05ac805b3b05b3a05b3905ad305b3705b3605b3505ac105b3305b3205b57,
  0x5b6005b5f05b5e05aeb05b5c05b5b05b5a05af405b5805b3100b0c05b1a05b5405b5305b5205ae505b5005b4f05b4e05aec05b4c05b4105b4b05b49,
  0x5b7905b7705b0105b7505b7405b7305b0105b7105b7000b0b05b3305b6d05b6c05b6b05af605b6905b6805b6705b0105b3005b6505b6305b6205aee,
  0x5b2b05b8f05b8e05b8d05b1905b8b05b8a05a8e05bb005bb605b8605a9000b0a05b4805b8205b8105b8005b1305b7e05b7d05b7c05b1a05b7a05b6f,
  0x5ba805ba705ba605b4405ba405b9905ba305ba105b2b05b9f05b9e05b9d05b2b05b9b05b9a00b0905b5d05b9705b9605b9505b2005b9305b9205b91,
  0x5bc005bbf05b5a05bbd05bbc05bbb05b5505bb905bb805bb705b5105bb505bb405bb305b4f05bb105c1a05baf00b0805b7205bac05bab05baa05b3d,
  0x5bd805b6b05bd605bd505bd405b7205bd205bde05bd105bcf05b5905bcd05bcc05bcb05b5905bc905bc805bd005bca05bc505bc405bc305b4f05bc1,
  0x5bab05bef05bee05bed05b7805beb05bea05be905b7a05be705be605be505b8305be305be205be105b7405b9d05bdf05bdd00b0605ba005bda05bd9,
  0x5c0805c0700b0700b0505bc905c0305c0205c0105b9405bff05bfe05bfd05b9b05bfb05bfa05bf905b8305bf705bf605bf505b8305bf305bf205bf1,
  0x5c2005bc605bdc05c1f05c1c05bb605b8705b8900b0405bdc05c1605c1505c1405bae05c1205c1105bc705c1005baa05c0d05c0c05c0b05b9e05c09,
  0x5c3805c3705bc505c3505c3400b0305bf705c3105c3005c2f05bba05c2d05c2c05c2b05bc505c2905c2805bae05c2705bb205c2405c2305c2205baf,
  0x5c5305c4f05c4e05be805c4c05c4b05c4a05c5000b0205c0c05c4605c4505c4405bd705c4205c4105c4005bde05c3e05c3305c3d05c3b05bc505c39,
  0x5c6805c6705c6605bf005c6405c7305cac05bed05c6005c6305c5f05c5e05c5d05beb05be905c6205c5a05c5705c5905c5505c5c05c5405bed05c51,
  0x5c8005c7f05c2f05c7d05c1205c7b05c7a05c7905c0c05c7705c7605c7505bff05c7c00b0005c3605c7005c6f05c6e05c0105c6c05c6b05c6a05c08,
  0xb0100aff05c5b05c9505c9405c9305c2605c9105c9005c8f05c2d05c8d05c8c05c8b05c1505c8905c8805c8705c1505c8505c8405c8305c3d05c81,
  0x5cb105c4605cae05cad00b3c00afe05c6f05ca905ca805ca705c4105ca505ca405c5805c5605ca305c3c05c9f05c9e05c9d05c3005c9b05c9a05c99,
  0x5c5c05c4805cc705b1005a8405a2305cc50599505cc1058b705c5e0584405cbd05cbb05cba057830572a05c56056e5056920569805cb605cb205c72,
  0x5ce005cf305c7305cdd05cdc00afc05cde00afd05c9d05cd705cd605cd505c6205cd305cd205cd105c6f05ccf05cce05ccd05c8a05ccb05cca05cc9,
  0x5c8605cf705cf605d4005d7805cc205cf205cf105cf005c8305cee05ced00afb05cb005cea05ce905ce805c7b05ce605ce505ce405c7e05ce205ce1,
  0x5d1005d0f05ca505d0d05d0c05d0b05c9e05d0905d1500af905ccb05d0505d0400af205cc7056c305d0105cff00afa05cfe05c8a05cfb05cfa05cf9,
  0x5cc305d2705d2605d2505caf05d2305d2200af705ce5056bc00af805ce205d1c05d1b05d1a05ca505d1805d1705d1f05d1605d0305cec05ca605d11,
  0x5d5f00af305d0305d3d05d3c05d3b05cc905d3905d3800af405cfb05d3505d3400af505cf705d3105d0705d3000af6056bb05cf205d2b05d2a05d29,
  0x5cef00aef05d1b05d5505d5400af005d1705d5105d5000af105d1305d5705d4d05d2e05d4b05d2105d4c05d4905cd405d4505d4405d4305cd005d41,
  0x5d7005cfd05d6e05d6d05d6c05d0a05d6a05d6905d6805cf305d6605d6505d6405cfb05d6205d3705d8505d6105d5e05cf605d5c05d3305d5b05d59,
  0x5d8805d8705d1f05da400aee05d4805d8205d8105d8005e1e05d0805d7d05d7c05d7b05d0b05d7e05d7905d4f05d7705d7505d7805d0205d7205d71,
  0x5da005d8c05d9f05d9e05d9c05d2905d9b05d3405d9a05d9805d9605d9505d1f05d9305d9205da005d9005d8f05dd805d9705d8c05d5305d2305d89,
  0x5d7d05db705db605db505d3d05db305db205db105d4105daf05dae05d4805dad05d3905daa05da905da805d3505da605dac05da505da305d4105da1,
  0x5dd005dcf05dce05d5b00ae805d9005dca05dc900ae900aeb05d8b05dc500aec05dc405d8805dc105dc005dbf05d5505dbd05dbc05dbb05cf500aed,
  0x5d7405de705de605de505d7205de305d3f05eb605de205ddf05d6f05e3700aea05de005cf405ddd05ddc00ae605dda05d9b05dd405dd300ae705d96,
  0x5e0805e0005dfe05dff05dfd05d9205e1605dfa00ace05dbc05df605df505df405d8705df205df105ef105da805dc205d8405df805dee05dea05de9,
  0x5db805e1705dfc05ee700ae505dd205dd805e1405e1105e0f05e0e05da905e0c05e0b05e0a05da005e1005da305dc805e0605d9105e0405e0205d95,
  0x5e3005e2f05e2e05dc805e2c05e2b05e2a05dbd05e2805e2705e2605db905e2405e2305e2205dc005e2005e1f05e1e05dab05e1c05e1b05e1a05df9,
  0x5e4c00ae105e0b05e4505e4400ae205e0705e4105e4000ae305e0305ddf05e3c05e3d05e3a05e3905dcb05e3b00ae405dfa05e3405e3305e3205dc5,
  0x5e2505e5f05e5e05e5d05dea05e5b05e5a05e5905df705e5705e5605e6200ae005e1805e5405e5205e5005e4f05dde05e4d05dea05e4b05e4a05e49,
  0x5e7900ade05e3b05e7505e7405e7305e0d05e7105e8205e6f05e7005e6d05eae05e0a05e6a05e3f05e5c05e6705e6905e6505def05e6305e6600adf,
  0x5e4705e5505e8405e9005e3605e8c00adb05e4e05dd705d8d05e8805e8500adc05e4805d8e00add05e4505e7f05e7e05e7d05e1705e7705e7b05e43,
  0x5ea800ad805e6b05ea505ea405ea305e3105ea105ea000ad905e6305e9d05e9c05e9b05e2605e9905e9805e9705e3105e9505e6105e9400ada05e56,
  0x5e6b05e6e00ad505e8205e9205ebc05eba05eb905e4705eb705eb600ad605e7905eb305eb205eb105e4d05eaf05e8a05ec005eac00ad705e6f05ea9,
  0x5e9d05ed705ed605ed505e6005ed305ed205ed105e6b05ecf05ece05eab05ec200ad205e8f05e9f05ec905ec700ad305e8a05ec405ec300ad405e86,
  0xacd05ef405eb405eed05ec605eec05eee05eea05e8300acf05eab05ee505ee400ad005ea705ee105ee005eb505edf05ea705e6c05edb05eda00ad1,
  0x5f0805f0705f4005f0505f0405ed905f0d05f1705f0105eff05e9905efd05efc05efb05ecd05e9605ef805ef705ef605f4305e8905f1305ef305ef2,
  0x5def05f2005df005eb500ac405f1e05ee005ee305f1905f1c05f1600ac105eb305ed905f1200acb05f1105f0f05ed505e9f05f0c05f0b05f0a05e97,
  0x5f3805ed005f3605f3505f3405ec505f3205f3105f3005ece05f2e05f2d05f2c05f7a05f2a05f2405ec205f2705f2905f2600ac905ef005ee805f21,
  0x5f5005edb05f4e05f4d05f4c05ee505f4a05f4905f4805ee205f4605f4505f5d05ef005f4205f4105f4005eda05f3e05f3d05f3c05ecf05f3a05f39,
  0x5f0005f6705f6605f6505efd05f4305f6305f6105f6005ef605f5e05f4400ac705f2005f5a05f5905f5805ee605f5605f5500ac805f1805f5205f51,
  0x5f8000ac305f5400ac000ac205f410544200ac505f3d05f7705f7605f7505f0305f7305f7200ac605f3505f6f05f6e05f6d05ef805f6b05f6a05f69,
  0x605b05f98052c70520505f9604f1f05f9704f2005fc305f7e05f8e05f9105f8d00abf05f4f05f8905f8805f8705f1605f8505f8405fd30602f05f81,
  0x5fb105faf060840601b05fac05fab05faa05f3705fa805fa705f0605f0005deb0563f05fb605fa105f2d054f305f9f05f9d05fb905f7105f9c05f38,
  0x5fc805fc705fc605f6405fc405f9300abe05f8605fc005fbf05fbe05f550607b05f4905fba00aaf05f7d05fbc05fb705fb505f1505fb405f4705f03,
  0x5fe005fdf05fde05f7505fdc05fdb05fda05f6605fd805fd705fd605f7405fd405fef00abd05f9605fd005fcf05fce05f6505fcc05fcb05fca05f56,
  0x5ff80600200abb05fba05ff405f9205ff305ff105ff205f8805fee05fed05fec00acc05f7805fe905fe805fe705f8505fe505fe405f8f00abc05fa6,
  0x60100600f05f9c0600d0600c0600b05f98060090600805ffc0601e0600705fa3060030600500ab900aca05fc505ffe05ffd00aba05fc005ffa05ff9,
  0x60280602c060270602605fb70602306024060220602005fe005fb60601d0601c0601b05fb406019060180601705fa8060150601400ab805fd706011,
  0x604000ab4060030603d0603c00ab505fff060390603800ab605ffb06035060340603305fc00603106048060300602e05fbb0602f00ab705fef06029,
  0x605806057060560603b05fec060140605206053060510605000ab3060120604e0604c0604a05fe20604905fe20603706046060440604305fd906041,
  0x60700606f060090606d0606c0606b0600106069060680606705ff4060650606400ab20602706061060600605f05fec0605d0605c0605b0607405fe8,
  0xaad060890604c0608505fae00aae0604706081060800607f0600c0607d0607c0609700ab00603e05ff6060780603f0607605f8200ab10603706071,
  0x60a00609f0609e05f9b060010603805f8b060130609a05fd205d4700aac05fe3060590609205f830550d0609105fad0608e060150545c0608b06063,
  0x5dd505d7305cd90604b056a00562f060b40553f054e0060b1054f0054b2054880544b0528905274051f8051d904ef804ef9060ae0602b0604f06042,
  0x60d0060cf0655f0692a060cc060cb0607a06064060c8060c7060e606086060c40517700aab06086060c0060bf060be05fa60608605f8c05f7f05ee9,
  0x6074060e700aa8060aa060e4060e3060e20607c060e0060df060de06069060dc060db060da060ea064e9060d7060d8064f9060d4060d3060d20605f,
  0x61010610000aa6060c2060fc060fb060c50651a00a4d060bc060f6060f5060f406087060f2060f1060f00608a060ee060ed060ec0607f060c6060fa,
  0x6118060b4061160611506114060a1061120611106121060b70613d0610e0610d00aa5060cf06109061080610706094061050610406125060bb06129,
  0x60be0612f0612e06153061280612b061010612a00a9f060ec061260610300aa0060e8061220611000aa2060e40611e0611d00aa4060e00611a06119,
  0x60e7061470614606145060d80614306142061410611a0613f060de0613e00a9e061000613a0613906138060cf0613606102061350611c061330610f,
  0x61600615f0615e060fa0615c0615b0615a060f8061580615706156060e906154061640615200a9d061150614f0614e0614d060e90614b0614a06149,
  0x610906177061760617500a9a06138061720616b061710616f060fa0616d0616c0615100a9b0612e061680616706166060ef0612c0612d00a9c06126,
  0x61900618f061270618d0618c0618b06121061890618806187061a100a99061490618306182061810611c0617f0617e0617d061100617b0617a06179,
  0x61a900a970616b061b906132061a5061a3061a2061a0061380619e0619d0619c061320619a06199061be0615a06196061980619500a980615706191,
  0x6185061bf061a800a9506181061bb061ba061d400a960617c061b6061b5061b406141061b2061b1061b006146061ae061c8061eb0618c061aa061ad,
  0x628806241061d8061d6061d506161061d2061d100a9306194061ce06197061cd061cb0615c061c906207061c706211061b0061c400aa9061c300a94,
  0x61f0061ef061fc0618d061ec061ed00a92061ae061e8061e7061e606180061e400aa7061e3061e10616a061df061de061dd0617b06266061da061db,
  0x61a7061a10620606205062040619506202061ea06201061ab00a8e061c2061ac00a90061bf061f9061f8061f706191061f5061f4061f30617c061f1,
  0x622706220061c500aa10621f00a8b061df00aa306219062170621600a8c061d9061c60621300a8d061d50620f0620e0620d0619a0620b0620a06209,
  0x62390623800a8a061fa062340623306232061bf062300622f0622e061bb0622c0622b0627206237061f306229061c30622506224062960625606221,
  0x6250061dc0624e0624d0624c061d80624a0624906248061d806246062450624400a890620706241062400623f061cc0623d0623c0623b061d106255,
  0x6261062050628100a8606229062630626200a87062250625f0625e062360625d061f60625a062590625806228061e90622a00a88062180625206251,
  0x62800627f062e40627d0627e062090627c0621306278062770627606205062740627a0627300a85062350626f0626e0626d061fa0626b0626a06269,
  0x6231062970629900a83062590629306292062910622f0628f062790628e0628c06224062a30628a0628d0628706289062860621400a840628306247,
  0x62b0062af0623f062ad062ac06285062ab06237062a8061d7062a7062a506241061d900a8206266062a00629f0629e0623c0629c0629b062b80629a,
  0x62c806259062c6062c5062c406254062c2062c106295062c00624c062bd06222062bc062ce062690622300a810627b062b5062b4062b306244062b1,
  0x62e0062fa00a7e062a2062dc062db062da06266062d1062d8062d6062d50625f062d3062d200a7f06295062cf062b9062ba00a8006290062ca062c9,
  0xa8f0636a06315062ff062f4062f506281062f1062f200a7c062f0062ed0627a062eb062ea06390062e800a91062e7062b300a7d062a8062e2062e1,
  0x6310062a10630e0630d0630c062a606385063090630a00a740630700a7b062c90630306302062cb063000630100a76062c20628c062fc062fb062f9,
  0x635506310063260632506324062aa063220632106320062b30631e0631d0631c062a90631a0631906318062a2063160631506314062d00631206311,
  0x6340062ee0633e0633d0633c062d60633a0633906338062cb063360633506334062d1063320633106330062ba0632e0632d0632c062bc0632a06329,
  0x6358062e2063560632800a7a06318063520635106350062ea0634e0634d0634c062d70634a0634906348062d8063460634506344062ce0634206341,
  0x63700636f063770636e062fa0636b0636d00a790632d063670636606365062ff06363063270636206360062eb0635e0635d0635c062ec0635a06359,
  0x634d0638706353063860638900a770636906347063800637f0637e0630a0637c062f60637b0637906303062f800a780633a06374063730637206301,
  0x63660633a0639e0639d00a72063600639a0639906398063250639f06396063950639306394063200639000a73063b30638f063ef0638b0638a00a68,
  0x63ba0634900a6e0637a063b6063b4063b20637700a70063b0063ae0637406407063ac063aa00a710636d063a7063b5063a5063a6063a400a67063a3,
  0x639c06395063ce063cd00a7500a6c0638f063c9063c8063c706360063c5063c4063c306353063b1063c1063bf063be06356063cc063bc063a906391,
  0x63ad063e7063e600a6a063a9063e3063e2063e10637b063df063de063dd0636c063db063da063d906369063d7063d6063d506368063d3063d200a6b,
  0x638d0640006396063fd06417063fc063b7063fa0638b06385063f606308063f5063f3062e906391063f00638c00a66063b2063ec063eb063ea00a69,
  0x641900a63063db064150641406413063aa06411064100641b0640f0639a0640c0640b0640a063a806408063e50640e00a65063d1063c90640206401,
  0x6430063c6064350642e0644700a61063c906429063ef064280644b06405063e306427063ab06422064200642c064230641d063b30641c063b1063ad,
  0x64490640d06446064450644400a60064070644106440063de0643e0643f0643d0643b063d7063d60643806439064360643706472064040643206431,
  0x6460063f2064650645e063ea00a590641f064590645b064580645606457063e906454063ed06425064260645c064530644d064510644c063dd00a5e,
  0x64050647706476064750640f064730643306434064860640d0646e00a5c0646d00a57064310642f0646806469064660646706464063f70646206461,
  0x64900648f0648e0641b0648c0648b0648a0642806488064870649200a5a064490648306482064810640d0647f0647e00a5b064410647b0647a06479,
  0x64aa064a7064a606433064a40647d064a3064ac0644d0649f0649e064eb064a80649b0649a06499064260649706496064950642f0649300a5506456,
  0x64a0061ff061c1061a70619306128060fe0517c0613c0517d064c0064b506451064b300a6d064b2064b0064a10644e064ad00a540647000a6f06384,
  0x64c60610b05153064da051540646f064cc064d200a5306494064ce064cd0646b0644e0641e063a2062e5064d0062ef062710646c0621e0621b064c3,
  0x64f0064ef064ee0648c064ec0649d00a52064850642b063fb06383062de064ae0630506265064e3061b8064e0064de06469064dc064db061d006185,
  0x6508064a20650606505065040649b0650200a6406501064ff0648a064fd064fc064fb0648c0649c064f9064f7064f606490064f4064f3064f20647f,
  0x64b30651f0651e06537064cd0651b060d600a51064dd06517065160651500a62064a1065120651106510064a60650e0650d0650c064980650a06509,
  0x65380651d00a4c00a50064d7065330653206531064bc0652f0652e0652d064ba0652b0652a0655306917065270652600a4f064fa065230652206521,
  0x65500654f0654e065090654c0654b0654a064dd06548065470654600a5d064e406543065420654100a5f00a4a065030653d0653c00a4b0651c064ff,
  0xa470652c0656600a560656506563064e906568065610656000a48065220655c065190655b06559064df00a58060d5065d1065570655400a4906516,
  0x655b0658006597069950657c0657b009f80653e0657806577065760650306574065730699b069ff065700656f0653b060f80657f0656b0656a064f7,
  0x659806599009f70655a0659406593065920651f065900658f065630658d0658c0658b0651606589065880658706518065850658406567065a006582,
  0x65b0065af06545065b200a4506570065aa065a9065a806543065ad065a6065a4065a306533065a1065a500a460691d0659d0659c0659b069bc0652c,
  0x65c90655c065c606581065c5065c306554065c1065c00658300a4306582065bc065bb065bf00a440657d06554065b7065b5065b4065b606547065b1,
  0x65a5065df065f80659f065de065dc065db065da00a410659c065d6065d506579065d406560065d3065ac065d000a4206592065ba065cc065ca0659f,
  0x65fb00a3d065bb065f5065f400a3e06616065b70662806603065f0065ee065ed065ec00a3f00a3a065ae065ad065e7065e5065e6065e4065e300a40,
  0x65ab065f70660f065dd0660d0660b0659c065eb00a3c065cc0660606605066040658f0660206601066000659e065fe065fd06609065fc0658d065f9,
  0x66290664206626065bf066630660306624066220662106620066930661d0661f065a700a4e065b80661a066180661700a3b065d9066130661206611,
  0x660500a3900a38066020663c0663b0663a065ce066380663706636065c3066340663306632065c2066300662f065f30662e065c60662b0662a0663f,
  0x66580665700a360661a066540665306652065e6066500664f0665b066d3065f70664b0664c066490664a00a270660b0664706645065d60664300a37,
  0x66700666f0660b0666d0666c06690066a1066690666806667065f306625066650664d00a3406626066600665f0665e065e70665c0664e00a350661e,
  0x6688066870661d06685066840665600a3106646066800667f00a32066420667c0667b065ef06623065f10667a066040667506674066730660906671,
  0xa2e066640669e0669b0669d00a2f0665f0669906698066970662706695066a200a2d06657066910669400a30066530668d0668c0668b0661806689,
  0x6643066b7066b6066b506646066b3066b2066b106647066af066ae066e2066ad0665e066ac0663b066aa066a8066a7066a5066a6066310673d066c6,
  0x66d0066cf00a2b06692066cc066d2066ca066c906651066c7066cb066c506656066c3066c200a2c06685066bf066be066bd06649066bb066ba066b9,
  0x66ea06746066dc06684066e5066e4066e300a28066a5066df066de00a3300a29066a0066da066dd066d9066d706669066d5066d406669066d306668,
  0x6700066ff0669906906066fd066fb066fc066fa06686066f9067c1066f70687d066f4066f2066f306690066f0067200667f066ef066eb066ec066e9,
  0x671806717066a0066ce066a8067130671206711066af066c10670f0670d0670c0669f0670a06709067080666a0668f066830667e0666b0669706701,
  0x6730066c60675e0672e00a1e066f00672c067290672a06727066b406726066b40672506723067220672100a26066e30671d0671c0671b066b506719,
  0x66e206747066e800a24066a106709067420674106740066d90673e066a300a25067000673a0673906738066c3067360673506734066c50673206731,
  0x66ec0675f06760067780675d00a220671f067590675806757066f20675506754067530674e066e4067500674f00a23066e6067120674b0674a06749,
  0x6779067050677f00a1d06776067730673906963068ff067710676f069580676d0676e066fa0676a06703067690676706765067660695f06764068fb,
  0x67900678f0678e0671d0678c0678b0678a067190678806787067ab06833067840678300a1b067460679b067800677e0695c00a1c067400677c0677a,
  0x6736067a7067a6067a50672f067a3067a200a1906882067650679f0679e067300679c0679a06721067980679706796067260679406793067920671f,
  0xa1806784067be067bd067bc0674a067ba067b9067b806752067b6067b5067b40673a067b2067b1067b006743067bb067ae067ad067ac06782067aa,
  0x67dd067d7067d6067d506761067d3067d2067d10676b067cf067ce067cd06768067cb067ca067c906763067c700a2a067c6067c406760067c2067ea,
  0x67f100a16067b3067ed067ec06877067eb0677d067e8067e7067e606784067e4067f0067e3067e10676b067df067de067dd0676b067db067da067e2,
  0x680806796068060680506804067be0680206801068000678b067fe067fd067fc0678d067fa067f9067f806796067f6067f5067f406787067f2067b0,
  0x68200681f0681e067b10681c0681b0681a00a1700a15067dc068160681506814067a7068120681106810067ae0680e0680d0680c067960680a06809,
  0x68380684f067ef068350683400a13067d8067ef067f70682f0682e0682d0685100a14067ef068290682806827067c10682506824067d906823067bd,
  0x685200a12068130684d0684c0684b067d2068490684806847067d7068450684406843067d006841068400683f067ce0683d0683c0683b067ca06839,
  0x68680686706866067fc06864068610686300a11068250686f0685f0685d0685c067ea0685a0685900a21068580685e06836067ec067e50685306837,
  0x68450687f0687e0687d068170687b0687a068790680b068a000a0f0683a068740687306872068040687000a1a00a10068320686c0686b0686a067fc,
  0x6899067a1068270678606895068930689e06858068900688f00a0c06852068a70688c0688a00a0d0684d0688706886068850681f068830688b00a0e,
  0x68b406843068ae068ad068af068ac068cf06841068aa0682b068a8068ae068a500a0a06833068a4068670689f0689100a0b068610689b0689a06785,
  0x6854068c7068c6068c506861068c3068dd06889068c2068bf06849068bd068bc069130689200a20068c100a0800a090687b0687a068b3068b2068b1,
  0x68e10686e06876068de068dc068db06879068d9068d8068d70686a068d5068d4068ed0689c0690d068d1068d000a0706892068a3068cc068ca068c9,
  0x6893068f7068f6068fe068f506885068f2068f1068f006886068ee06876069400687e068f400a06068ad067c0068ea068e7068e4066f5068e5068e3,
  0x68e9068ab068d600a04068d10690b0690a068d206909068a1069060690506904068910690206901069000688a068d300a05068c1068fb068fa068f9,
  0x6928068b8069260692506924068ba069220692106920068ba068ab0691d0691c068ce0691b068a7069180691706916068a606914068bb00a03068a9,
  0xa00069040693e0693d0693c068cc0693a0693900a01068fc069360693506934068c7069320693100a02068f40692e0692d0692c068bd0692a06929,
  0x9fe0691c06930069560695406953068e606951069500694f068e90694d0675c069380694c06949068d60694706946009ff069090694300a1f06942,
  0x677506970069000696d0677d0696c0672d067700671f009fa0692b067620696506772009fb069260696006763009fc06922009fd069200695a06959,
  0x6988066480698706915066150698406982065e1065ce06981065520690b0694506528068b7065290697c06977068810688e06976069100697206971,
  0x696a069420676b066f60699e009f6066e10695f066410661e0699806995065ea065d8069940657e0655e009f9060cd06953060ce0675b066ee0698c,
  0x69b8069b706950069b5069b4069b3069ba069c0069b00693d069ae069ad069ac06939069aa069a906b1006b20069a6069a5069c3073d1069a2069a1,
  0x9e706994069ce069cd06a9406a43069ca069c906ab406b39069c6069c506bd9009e806987069c1069d2069bf069be0694d009f5069f006980069b9,
  0x69e8069e706979069e5069e4069e306979069e1069e0069df0696c069dd069fd06978069dc009f40699d069d7069d6069da069d50696d069d406a67,
  0x6a000657d069ff06a060658e009f2069bf069fc069f9069f7069f606983069f4069f3069f20698e069f8009f3069b3069ed069ec069eb06985069e9,
  0x6a1806a1706a33069cd06a1406a1306a120699d06a1006a0f06a40069fd06a0c06a0906a0b069d1009f1069cc069d90659606a0606a0306a020698f,
  0x6a3006a2f06a2e069ba06a2c06a2b06a2a069bb06a2806a2706a26069b606a2406a2306a22069b806a2006a1f06a1e069af06a1c06a1b06a1a069a7,
  0x6a48069d306a4606a4506a5f06a44069cf06a4106a43009ef06a0306a3d06a3c06a3b069c606a3906a3806a1506a37069c706a3406a16009f0069f6,
  0x69ec06a0e009ec06a2206a5c06a5b06a5a06a0506a5806a5706a56069ef009ed06a1806a5206a5106a50069de06a4e06a4d009ee06a1006a4a06a49,
  0x6a7806a7706a4c06a88069ff069b106a7306a7106ada0657106aa706a3f06a6d06a6b06bc8073a806a68009ea0657206a2b06a6406a0d06a6306a61,
  0x6a9006a2a06a8e06a8d06a8c06a1706a8a06a8906a9606a8706a8606a1106a8406a8306a8206a0c06a8006a7f06a7e06a1a06a7c06a7b0746307a94,
  0x742006a3206aa606aa506aa406a4006aa206aa10742e07ddd06a9e06a9d0095306a6006a9a06a9906a9806a3206a3506a95009e606a5806a9206a91,
  0x9e406a8406abe06abd06abc06a5806aba069cb06ab906ab706a4d06ab506ac306ab3009e506a7606ab006aaf06aae06a4806aac06aab06aaa069cc,
  0x6a9d06ad706ad606ad506a5e06ad306ad206ad106a5706acf06ace06acd06a5806acb06aca06ac906a5806ac706ac606ac506a5706a7e06ac206ac1,
  0x6af0009e006ab306afe06aed06aeb009e106aae06ae806ae706ae606b0706a7706ae306ae2009e206aa506adf06ade06add06a7506adb06ae4009e3,
  0x6a9606b09009dd06aca06b0406b0306b0206a9206b0006aff06a9406afd06afc009de06abf06af906af806af706a9106af506af4009df06ab706af1,
  0x6b2106b4d06b1e06b1d009da06af306ad906ae006b1806b1706a6f06b1606aef06aea06aa206b1106b2006b6e06b3206b0d06b0c06a7006b1f06b0b,
  0x6b3806b3706b3606ac206b3406b33009d706af606b3006b2f009d806af206b9f06b2b06b2c06b2906baf06b2806ab606b2506b2406b4806b2306b82,
  0x6b5306b5006b4f06b4e06ae106b4d06ade06b4906b4b06b47009d406b0a06b4406b4306b4206ace06b4006b3f009d506b0206b3c06b3b009d606afe,
  0x6afb06b6706b6606b6506afb06b63009e906b62009d1009d9009d206b3206b22009eb06b5b06b5906b5806ae706b5606b5506b24009d306b1706b51,
  0x6b4506b7f06b7e009ce06b4106b7b06b7a06b7906b0c06b7706b76009cf06b3906b7306b7206b7106b0406b6f009db009d006b3106b6b06b6a06b69,
  0x6b7506b6006b9806b0f06b22069a706b9506b2506b5406b9006b8e06b8d06b4606b2306b3e06b8a06b8806b3a06b2e06b2306b8706b22069a8009cd,
  0x6bb006b2a06b1c009cb06afb06ae106b7106ba906ac006b0e06ba806ba506b3806ba306ba206ba106b3706ab2069c7069c8009cc06b7d06b6006b99,
  0x6be6009c906b8b06bc506bc406bc306b4f06bc106bc006bbf06b5206bbd06bbc06bbb06b5906bb906bb806b27009ca06b7a06bb406bb306bb206b42,
  0x6be006bdf06b6c06bdd06bdc06bdb06b7906bf706bd8009c806b9b06bd506bd406bd306b6006bd106bd006bcf06b5c06bcd06bcc06bcb06b6906bc9,
  0x6c2e06bf906bf606bf506b8206bf306bf206bf106b7e06bef06bee06bfd06b9a06beb06bea06bb7009c706c3a06bac06be506be406be306b7006be1,
  0x6c1006c0f06c2006c0906bbe06c0b06c0a009c506bcd06c0706c0606c0506b99009dc06c0306c0106c0006b8d06bfe06bec06bed009c606bbf06c76,
  0x6c28009c206beb06c2506c2406c2306bbd06c2106c0e009c306be306c1d06c1a06c1c009c406bde06c1806c1706c1606bb006c1406c1306c1206bae,
  0x6c4106bcd06c3e06c3d06c6206c3606c58009c006bfd06c3706c36009c106bf906c3306c3206c2706c3106bcb06c2e06c2d06c2c06bbf06c0d06c2a,
  0x6c5906c5706be706c5506c5406c5306be006c5106c5006c6d06c4e009bf06c1106c4b06c4a06c4906bda06c4706c4606c4506bd506c4306c4206c35,
  0x6ca106cab06c7206c0406c6c06c6b06c6a06c0006c6806c6706c9806c6606c0006c6306c65009be06c2506c5f06c5e06c5d06bee06cec06c5b06c5a,
  0x6c8806c7a009bc06c4a06c8406c8306c8206c1506c8006c7f06c7e06c1406c7c06c7b06c9006c8706c2206c7706c79009bd06c3906c7306c7206c71,
  0x6ca0009b806c6306c9d06c3b06c9c009b906c5e06c3c009ba06c5b06c9506bf806c9406c9206c2f06c4f009bb06c5306c8d06c7806c8c06c8a06c1d,
  0x6cb806c5606cb606cb506cc506cb406c4a06cb106c6106cb006cae06c4906cac06cb3009b706c6e06c9a06ca806ca606ca506c7506c4306ca206cbf,
  0x9b506c9406cd206cce06ccc06ccb06c5b06cc906cc806cc706c5106ccd009b606cdd06cc206d1206cc206c8806cbe06cbd06cbc06c4906cba06cb9,
  0x9b106cac06cc406ce606caa06ce406ce206cff06ce006c6e06c7506d2806cfa009b306c9f06cd906cd806cd706c6f009b406c9906c6e06cd306cd1,
  0x6d7c06d1d06d0406cb706c8b06cfc06cfb06cf906cf806c9606cf606cf5009b006cb806cf206cf106cf006c8a06cee06ced06cec06c7d06cea06ce9,
  0x6d1806d1706ce806ca206d2406d1406d13009ae06cd506d0f06d0e009af06cd106d0b06d0a06d0906c9406cd006d0706d0506d4906d0306d0206dca,
  0x6d3006cbd06d2e06d2d06d2c06cc606d1106d2a009b2009aa06cc006ceb06cc1009ac06ce706d2106d0d06d3a06d2006cf406d1e009ad06cdf06d19,
  0x6d4806d4706ce106d4506d4406d5c06cef06d4106d4006de106d8606d3e06d4006cca06d3b06d3906d3806cd206d3606d3506d3406cc006d3206d31,
  0x6d6106d5f06ce906d5d06d43009a806d1f06d5906d5806d5706ce206d5506d5406d5306ce406d5106d5006d4f06ce906d4d06d4c06d4b06cdd06d49,
  0x6d0f06d7706d7606d7506d0206d7306d7206d7106d0e06d6f06d6e06d6d06d0306d6b06d6a06d6906cfc06d6706d6606d6506cfb06cdc06d6306d42,
  0x6d1f06d8f06d8e06d8d06d4706d8b06d8a06d8906d1806d8706d3f009a706d4906d8306d8206d8106d1306d7f06d7e06d7d06d0706d7b06d7a06d79,
  0x6da806da706da606d4306da406da306da206d3806da006d9f06d9e06d3106d9c06d9b06d9a06d3006d9806d9706d3d06d9606d1f06d9306d9206d91,
  0x6d5806dbf06dbe06dbd06dda06dbb009a606d7e06db806db706db606d4806db406db306db206d3c06db006daf06dae06d4406dac06dab06daa06d37,
  0x6dd806dd706dd606d6306dd406dd306dd206d6206dd006dcf06dce06de606d5e06dcb06dcc009a506d8d06dc706dc606dc506d5006dc306dc206dc1,
  0x9a106dc906db406ded06dec06df006dea06d00009a206dac06d01009a306dff06da906de206de306deb06d6d06dde06ddd06ddc06d7a009a406d9e,
  0x6dcd06e0706dfd06e1506e04009a006e0306dc706d9206e0006dfe06e0606da106dfb06dfa06df906d8606df706df606e1b06db806df306df207168,
  0x6e200099c009ab06de306e1c06e3606df50099d06e1a06dfc06ddd0099e06dd906e13009a906e9306e1206e1006e0e06da506e0c06e0b071d00099f,
  0x6dfe0725306e3706e3506e7e0716806e3206e3106e3006dbb06e2e06e2d06e2c06dc306e2a06e2906df406e2806dbf06e2506e240099b06de706e21,
  0x6e5006e4f06e0c06e4d06e4c06e4b06de506e4906e4806e4706dda06e4506e4406e4306ddb06e4106e400728e06dd806e6d06e3d06e3b06e0f072c4,
  0x6e6806df306e6606e6506e6406dfe06e6206e6106e6006df406e5e06e5d06e5c06df806e1f06e5a06e5806e5706df506e5506e5406e5306de006e51,
  0x6e0e06e7f06e9d06eaf06e8906e7b06e7a06e7906e0106e7706e7606e7506e0506e7306e7206e3c06e7106dfd06e6e06e3f0099a06e3006e6a06e69,
  0x706406e9706e9606e9506e2006e9806e920099806e5506e8f06e8e06e8d06e1506e8b06e8a06e8906e1906e8706e8606e8506e1206e8306e8206e81,
  0x6eba06eea06eae06ead06eac06eab06e3306ea906ea806ea706e3706ea506ea406ea306e3006ea106ea006e9f06efa06e2c06e9c06e9b06fb4071c6,
  0x6ec806ec706e61009990099606e8806ec206ec106ec006e4d06ebe06ebd06ebc06e5a0719106eb906ec506eb806eb606e4306eb406eb30720a06eb7,
  0x6e7106edf06ede06edd06e6a06edb06eda06ed906e6606ed706eb006ed606ed406e9206ed206ed106ed006e5b06ece06ecd06e7c06ecc06e6406ec9,
  0x6ebd06ef706ef606ef506e8806ef306ef206ef106e8706eef06eee06eed06e8b06eeb009970099506ead06ee706ee606ee506e6d06ee306ee206ee1,
  0x6ea906f0f06f0e06f0d06e9e06f0b06f0a06f0906e9f06f0706f0606f0506e9806f0306f0206f0106e9706eff06efe06efd06f1606e9706efb00994,
  0x6f2806f2706eba06f2506f2406eae06f2306ebf06f2006f1f06f4d06ed706f1c06f1b06f1a06ec906f1806eaa06f170099306ed906f1306f1206f11,
  0x6f4006ed406f3e06f3d06f3c06ed806f3a06f3906f3806ed606fa006f3606f3406f3306ec006f3106f3006f2f06eec06f2d06f2c06f2b06ec506f29,
  0x6ef306f5706f5606f7a06f2506f5306f5206f5106ee206f1d06f4f06f1e0099206f1006f4a06f4906f4806ed306f4606f4506f4406ede06f4206f41,
  0x6f0106f6f06f6e06f6d06ef806f6b06f6a06f6906f0506f6706f6606f6506eff06f6306f6206f6106f0a06f5f06f5e06f5d06ef706f5b06f5a06f59,
  0x6f8806f8706f8606f1106f8406f8306f8206f1e06f8006f7f06f7e06f1806f5406f7c06f550099106f3d06f7706f7606f7506f0206f7306f7206f71,
  0x6fa10098f06f6306f9d06f9c06f9b06f2806f9206f9906f9706f9606f3406f9406f930099006f5606f9006f8f06f8e06f1b06f8c06f8b06f8a06f1a,
  0x6fb806fb706f5506fb506fba0098e06f7706fb106fb006faf06f3c06fad06fac06fab06f3b06fa906fa806fa706f37070ef06fa50708906fa206fa3,
  0x6f6c06fcf06fce06fcd06f5e06fcb06fca06fc906f5906fc706fc606fc506f5506fc306fc206fc10708b06f5006fbe06fbd06fbc06feb06f4906fb9,
  0x6fe806fe706fe606f7506fe406fe306fe20098d06fa506fdf06fde06fdd06f6e06fdb06fda06fd906f6106fd706fd606fd506f6506fd306fd206fd1,
  0x700006fff06f8c06ffd06ffc0701406fb206ff906ff806ff706fcc06f8206ff406ff306ff506ff206f8a06fef06fee06fed06f8706ff10098c06fae,
  0x70180701706fb50701506ffb0098b06fd707011070100700f06f9b0700d0700c0700b06f9307009070080700706f9707005070040700306f9007001,
  0x703006fbc0702e0702d0702c06fbd0702a070290702806fb807026070250702406fb407022070210702006faf0701e0701d0701c06ffa06fa907019,
  0x6fe70704707062070460704406fcf070420704106fd40704006fd60703d0703f0703c0703a06fd20703807037070360703b0098a06ff80703207031,
  0x70250705f0705e0705d06fe90705b0705a0705906fe107057070560705506fe507053070520705106fde0704f0704e0704d06fda0704b0704a07049,
  0x7078070770707607014070c607073070740707107070070080706e0700a0706d0706b070010706c07069070670706606ff007064070630706800989,
  0x709d0702b0701f0708d0708e0708c009880704e0708807087070860700e07084070830708207012070800707f0707e0700b0707c0707b0707a07007,
  0x70a8070a70702f070a5070a4070a307033070a1070a00709f070aa0702c0709c070950709b070990702607097070960098707059070930709207091,
  0x704e070bf070be070bd0704d070bb070ba070b907044070b7070b6070b507051070b3070b2070b1070ac0704b070ae070ad009860712e07070070a9,
  0x703406fea07065070d5070d4070d30706d06fb3070d1070cf070ce06e9907068070cb070ca070c907056070c706e9a0098507089070c3070c2070c1,
  0x70f006fbf00984070b2070ec070eb070ea07076070e8070e7070e607080070e4070e3070e207074070e0070df070de07074070dc070db070da07061,
  0x710807107070a1071050710407103070960710107100070ff07097070fd06fa4070fc070fa0708b070f8070f7070f607094070f4070f3070f207088,
  0x710b07120070a90711d0711c0711b070a90098300982070dc071160711507114070a10711907112071100710f070ad0710d0710c07111070dd07109,
  0x713807137070c70713507134071400715f070cd071300713f0712f00981070f10712b0712a07129070bc071270712607125070c30710a0712307121,
  0x71500714f071470714e070e90714b0714a07149070e3071470714607145070ee071430714d07141071420713f070d00713d0713c0713b070c307139,
  0x7168071670716607100071640716307162070fc071600716e00980071220715c0715b0715a070e7071580715707156070e6071540715307152070dd,
  0x71800717f0710c0717d0717c0717b0710b071790717807177071020717507174071730710f0717107170071840716f071080716c0716b0716a07113,
  0x7198071250715e0719607131071940719207122071900718f0718e071190718c0718b0718a0712607188071870718607120071330097f0714707181,
  0x71b006f15071af06ef906e7d071ad06e340097d0716d071a7071a6071a5071320719c071a3071a1071a00713e0719e0719d0097e071600719a07199,
  0x71c1071c8071c6071c507163071c3071c20097c071850712d0708a06f9f071bf071bb071ba07147071b8071b7071b607146071b4071b3071b20713d,
  0x7172071df071de071dd071d807173071da071d90097a06e090719c071d5071d4071d30716b071d106e0a0097b07193071cd071cc071cb06e3307158,
  0x7193071f7071f6071f507181071f3071f2071f10717c071ef071ee071ed0717d071eb071ea071e907184071e7071e6071e50717d071e3071e2071e1,
  0x719f0720f0720e0720d071ab0720b07210071b400978071cc072060720507204072080720200979071c5071ff071fe071fd0718b071fb071fa071f9,
  0x6eb20722807226071bc0722407223072220722a07220071aa0721e0721d0721c071ac0721a0721900976071dc00977071da07214072130721207216,
  0x71d80723f0723e0723d071d90723b0723a00975071fd07237072360723507209071c007232072310723006eb10724b0722d071bc0722b071c807229,
  0x725807261071f207255072540726f0724707293072510724f00973072120724c072500724a009740720d072470724607245071df072430724207241,
  0x7278072700726e071fb0726c0726b072f5009710722d07267072660725607265071f107262072570097207239072240725d0725c0725b071f307259,
  0x728807287072960723407291072830097007246072800727f0727e072120727c0727b0727a07207072ee0720307276072750728407273072b507271,
  0x72a10729f0729e072280729c072850729b0096d0725d07297072860096e07259072ae0723e0729307292072900096f072520728c0728b0728a07217,
  0x7272072bc0724f07253072b5072b3072b4072b2072b107247072af07240072ac072ab0725207253072aa0096c0726b072a5072a4072a30722f07299,
  0x72d007286072ce072cd072cc07267072ca06e38072c9072c707258072c506e3a0096b07287072c1072c0072bf0724b0732d07282072bd072ba072b9,
  0x72e807274072e6072e5072e40727e072e2072e1072e007276072de072dd072dc0726f072da072d9072d807267072d6072d5072d407266072d2072d1,
  0x730007296072fe072fd072fc0728f072fa072f9072f807288072f60726a0732700968072b700969072f1072ef072f3072ed0096a072b0072ea072e9,
  0x73180731e07316072a2073140096707313073110729f0730f0730e07369072d70730b0730a073090729407307073060730507269072960730207301,
  0x734b072c80732e0732f00966072f00732a0732907328072b5073260732507324072b1073220732107320072be07351072740731d072ac0731a07319,
  0x72d1073470734607345072d5073430734207341072ce0733f0733e0733d072ca0733b0733a07339072d7073370733607335072c0073330733207331,
  0x737107321073a70735d0734e0735e0735c0735a009640731c0735b0735507359072ee073560735207350009650734f07313072e10734c0734a07349,
  0x73060737707376073a600961073380737200962073350736f0736e0736d072fa0737a0736b0736a009630732c073660736507364072f10736207361,
  0x7368073900738e0738d0732a0730c0735f0730d0738b073a00738607360073850731e07382073810738007387009600731a0737c073420737b07379,
  0x733c073a7073b8073a50095c073a8073a207368073920095d073630739d0739c0095e0735f0737e0739907397073960732607394073930095f07356,
  0x73c7073bf0095a07382073bc073bb073ba0735007374073750095b0737a073b4073b3073b20733e073b0073af073ae07348073ac073ab073aa07355,
  0x9580739c073d60739a073d4073d30739b073d20736f073cf073ce073cd073d50095907364073c90738f073c8073c607350073c4073c3073c2073a4,
  0x73f0073d806cdb073ef073ec06a6900957073cb073be073ae073e6073e5073e40737a073e2073e1073e00736d073de073dd073dc07367073da073d9,
  0x74080740707406073a10740407403074020739c07400073ff073fe07384073fc073fb073fa07398073f8073f7073f607389073f4073f3073f20738c,
  0x954073e40732c0741e073580728f06dba0741c06e1700955073db07415069a3069a406e2306de00741406d1b06c390740f06bc70095606a6a073cf,
  0x6cdf06c9f06c4d06bd706be9069c40743807431073bf0742f0747d0742d00952073f00742a0742907428073c2074260742507424073af0742207421,
  0x74500744f07e760821e0744c0744b07418073ee07448073a107354072ec0731507447072490724e072010721806e9107442073c706de906df10743b,
  0x74680748c074f8075d207465074640095107426074600745f0745e07dd20745c0745b07e4b0825507458074570088d0741a07454074530747b07e2a,
  0x7480074a4074f207ddd0747c0088c0743f074790747807477074020747507474074730740d07471074700746f074070746d0746c07e1a074cd07469,
  0x94d0745c07496074950749407425074920749107490074200748e074ba0748d0748b0741807489074880094e0744b0748507484074990742807481,
  0x74b0074af07449074ad074ac074ab07435074a9074a8074790094c074a60746a074a3074a2074a1074320749f0749e0749d0742d074820749b07483,
  0x748d074c7074c6074c507458074c3074c2074c107457074bf074d9074be074bc07457074df009490747d074b7074b60094a074bd0094b07477074b1,
  0x74e30747d074e9074de074dd074dc07469074da07466074d7074d60094707499074d3074d2074d107464074cf074ce074cd07463074cb074ca00948,
  0x7488074f7074f6074fe074b80750e074f3074f100945074b4074ee074ed074ec07488074ea074f20093f00946074ab074e5074ac074e4074c9074e2,
  0x7511074a70750f00942074d10750b0750a075090749b0750707506075050749b075030750200943074c5074ff074f400944074c1074fb074fa074f9,
  0x7528074b3075260752507524074b5075220752107520074b60752e0751e074b00751c074f50751a074ac0751b07517075150751407516074a407512,
  0x74cc0753f0753e0753d075700756c0753a075390747e0093e074fb07535009500753400940074f6075300752f0094f0094107501074f10752a07529,
  0x74b5074e6074a7075560747f07554075db07551074de0754f0754e0093b075110754b0754a0093c0750d075470093d075460750a075430754207541,
  0x75490758e0093a0754407532075320756a0756907568074fc074e807566075640750d074d5074f00757d07514074660755e074b30755c074870755a,
  0x754d0755f0758707585075840750c075820758100938075440757e0756300939075400757a07579075780750507576075750757407501074b907572,
  0x75a1075280759e0759d00934075a0075600759907598075970752d075950759400936075570752d07591075900758f0758d075180758b0758a00937,
  0x75b8075b7075b60754707580075b4075b2075c307559075af0753b0093307571075ab075aa075a907536075a7075a6075a507543075a3075a2075ae,
  0x75890759507552075ce075cc075cb07556075c9075b0075c8009310758a075c4075b10093207586075c0075bf075be0754a075bc075bb075ba07544,
  0x76b3075e7075e6075c6075eb0756c075e20756e0759c075e10092e075a2075dc0092f075930759f075d8075e8075d7075d5075d607562075d300930,
  0x76000758f075fe075fd075fc076b707589075fa075f807744076dc075f5075f40092d075b7075f1075f0075ef07580075ed075ec075f9075ea07618,
  0x76190092b075db076150761407613075de07599076100760f0760e075aa0760c0760b0760a075c107608076070762c0761d0092c075c80760207601,
  0x76300762f075b50762d076060092a075ef076290762807627075ad07625076240763807623075be075b3076200761f0761e07634075cb076950761a,
  0x75d907647076460761b0766f076b3076420764107640075cb0763e0763d0763c075c90763a076390765000928075fb076350761c00929075f707631,
  0x76600765f0765e075eb0765c0765b0765a076180771807658076570765607654075ee075e507652076510764f0764e075d6076050764c0764a07649,
  0x7678076cf076770760f0767407673076720760c076700767600927076320766c0766b0766a075f2076680766707666075f6076640766307662075ef,
  0x769007618009350768e0768c0768b0761b076890768807687076140768507684076830761007681076800767f0763d0767d0767c0767b0760607679,
  0x7644076a7076a6076a50763b076da076a3076a1076ae076400769e0769d0769c076270769a0769907698076a2076250769600926076580769207691,
  0x76c0076bf076be07651076bc076bb076ba07658076b8076b7076b607643076b4076b3076b20769f07650076af076a00092507671076ab076aa076a9,
  0x76d8076dc076d7076d50766d076d3076d2076d107667076d60092407692076cc076cb076ca0765d076c8076c7076c607660076c4076c3076c207655,
  0x76f0076ef0767f076ed076ec076eb07678076e9076e8076e707674076e5076e4076e3076a1076e1076e0076df0766a07688076dd076db076da07671,
  0x7709077070766e076940770407703077020768f0764307700076fe076fd076bb076fb076fa076f90764500923076bb076f5076f4076f30767b076f1,
  0x77200771f076bd0771d0771c0771b076ad0771907730075e800921075e900922076d8077120771107710076980770e0770d0770c0769c0770a076ce,
  0x773807739077370773607734076d4076d20773207731077a0076bc076940772d0772b0772a076c807728077270772f077250091f07617076e807721,
  0x7750076db0774e0774d0774c076dc075f60774a077480776f0774207745075f70091c0770707741077400091d077030773d0773c0091e076ff077b1,
  0x772f077670773b077660091607728077620776100917077240775e0775d00918077200775a07759009190771c07756077550091a077180775207751,
  0x77800770a0091b00913077410777b0777e0777a07779077780773f0776807711077770777307706077700777100914077320776c00915077600776b,
  0x7798077970779600920077230779307792077910771e0778f077580778e0778c0772a0778a07789009120774c077860778507784077100778207781,
  0x77c8077640091007772077ac077ab0775c077aa0775407747077e107736077a40780d077a0077a3077a10779f0781a077d10779c0779b009110775e,
  0x7766077c7077c6077c507752077c3077c2077c107757077bf077be077bd07779077bb077ba077b90774c077b7077b607788077b507746077470776e,
  0x77e00786b0782d077dd077dc0090f0779f077d9077d8077d707771077fd077d5077d3077d2077d4077d007765077cf077ce077cc07787077cb077ca,
  0x77f80778a077f6077f5077f40777f077f2077f1077f00778a077ee077ed077ec07778077ea077e907860077e7077e807779077e60776f077e4077e2,
  0x7810077a70780e077a50090e077d00780a0780907808077940780607805078040778e07802078010780007791077fe077fd077fc07792077fa077f9,
  0x78280782707826077b3078240782307822077c0078200781f078330781e077ac0781b0781d0090d077dd078170781607815077a2077a40781207811,
  0x7840077da0783e0783b0783d078190090b077fe078380779d0783707835077d00779e0090c077f6078300782f0782e077c10782c0782b0782a077b6,
  0x785807857077f3078550785a078540785200907078150784f0784e00908078110784b0784a009090780d0784707844078460090a078080784207841,
  0x9040787107834077fe0786d07870009050782e078680786707866077ec078640786307862077fe00906078240785e0785d0785c0786c077e207859,
  0x781707888078860784d07887078c80786307883078810787f0787e0781c0787c0787b009030788f0783e07877078760781207874078490787307894,
  0x7880078a00786a00900078610789b077de0789a0789807875078a707831077df009010785707891078900789500902078520788c0788b0788a07839,
  0x78b8078b7078ee07848078b5078b4078b2078b10783f078af07847078ae078ad078ab07947008ff078d40786d078a6078a5078a407830078a2078a1,
  0x78d0078cf0786d078cd078cc008fd0788f078c907885008fe078d1078550788b078c4078c2078c3078c0078e307880078bf078bd078bb078f3078e0,
  0x78e8078e7078e607875078e4078aa078c1008fb078a5078df078de008fc07a19078db07868078a1078d9078d707882078d8078d607861078d4078d2,
  0x8f7078c4078fe078fd07924078c1078fa078f907909078f8078be07881078f407902008f8078f7078b6078ef008f9078b2078ec078eb008fa078ae,
  0x7919078dd07917078dd0791607913078a30791107912079100789b0790d0790e0790c078a80790a078a30790707906008f6078c9079440790307901,
  0x7930078ca0792e0792d008f2078f0079000792a07928008f3078eb07925078fc008f4078ea078e7079200791f0791e078ac0791c0791b07a25008f5,
  0x7948078ac0796b079d4078ba0791a008f007906079400793f0793e078cc0793c0793b008f1078fe07905079380793607935078c007933078fb07932,
  0x79600792c0795f078eb0795c0795b07969079bb0795807957078f207956078b9078ef0795207927079510794f078dc0794d0794c0794b078a9078e9,
  0x79780799b07977079750790f079730797207971078fc0796f0796e0796d07a11078fe0796a07976008ed0792c07966079650793a07a0b079a407961,
  0x79900798f0798e079240798c0798b0798a07915079880798707986079220798407983079820791c079800797f0797e0790a0797c0797b0797a07907,
  0x7944079a7079a6079a507931079a3079a2079c9079660799f0799e0799d07927079a8008ec0795e0799807997079960792707994079930799207922,
  0x79c00795e079be079bd079b3079bc07945079b9079b8079b707945079b5079b407989008eb07976079b0079af079ae07939079ac079ab079aa079b2,
  0x7973079a0079d7079d5079d407960079d2079d1079d00795d079ce079cd079cc07966079ca079a1008ea0798c079c6079c5079c407957079c2079c1,
  0x79f0079ef079ee0798c079ec079e1079eb079e907973079e7079e6079e507973079e3079e2008e9079a5079df079de079dd07968079db079da079d9,
  0x79cd07a0707a060795907a050799507a0207a0107a0007990079fe079fd079fc07992079fa079f9079f8008ee008e8079ba079f4079f3079f207985,
  0x7a2107a1f008e4079e207a1e079a907a1c07a1a07a1807a23079ff07a1507a14008e5079d70799a008ef07968008e6079d207a0c0796207964008e7,
  0x8e1079fc0795a07a3607a3407a33079c407a3107a3007a2f079c107a2d07a2c07a3807a2b07a2a07a39008e3079eb079b507a24008e2079e707a27,
  0x7a7707a1507a4e07a4d07a3907a5207a4b07a4a07a4907a5507a4707a4607a44079d7079d307a4107a4207a4007a3f07a3d07a3e07945079da079d3,
  0x79f607a6707a6607a1607a6507a17008e007a2607a6007a3a07a5e07a5d008dd07a2007a5f07a5a07a5807a59079f107a57079e207a0207a5307a51,
  0x7a8007a7f07a1507a7d07a7c07ad507a8b07a7307a7807a50008dc008de07a4807a79008df07a3607a7007a6f07a6e07a2807a0707a6b07a6a07a69,
  0x7b4f07a9807ac807a6207b1307a9307a9407a9207a9107a8f07bfb07a1a07c7707a8c07a8a07a8907a4f07a5c07a2007a8507a8407a8307a1b07a81,
  0x7ab007aaf07aae07ab307a3907aab07a3907aa907aaa07aa707aa807a3707aa407aa307af607aa107aa007bba07c7c07aa507a9d07a2c07a9b07a9a,
  0x7a96008db07a8b07ac507ac407ac307a5407ac107ac007abf07a4f07abd07abc07abb07a4e07ab907ab807ab707a4d07ab507ab407ade008d607a76,
  0x7aa507adf07ae2075d1008d907aa007ada07ad907ad807a6407ad607a7b008da07a9507a9807ad107ad007acf07a6507acd07acc07acb07a6207ac9,
  0x6a7907b0006a7a07a8307af4008d307ab707af107af007aef07a7a07aed07aec07af307aeb07a7a008d407ae807ae607aac077af07ae407a7a008d5,
  0x7b1107b0f07e0007dbe07b0c07b0b07a7207a20078f007a9f0788e07b060785307b040771707b1f07b0207a93076370760407afe0746207afb07af9,
  0x7b2a07b2707ae107b2507b24008d207ae707b2807ab407dfb07b1e07ab207b1c07b1b07e2007db607b2107b1807b1607b1707b1407b1507aa007ae5,
  0x7adf07b3f07b3e008cf07ab207b0107b3a07b3907b3807ac407b3607b3507b3407abe008d7008d007af507b2f07b2e008d107af107b2b07b3207b29,
  0x7b5807b5707b5607ae107b5407b5307b5207aec07b50008d8008ce07b1207b4c07b4b07b4a07ad707b4807b2d07b4707b4507ad207b4307b4207b41,
  0x7aff07b6f07b6e008cc07b3107b6b07b5c07b3d07b6a07af607b6707b2307aea07af107b6207b6107ba207b3c07b5e07b5d07add07aa207b7a07b3e,
  0x7b8807a9707b8707b2407b5907b8407b8207b8107b0b07b7f07b7e07b7d07b0b07b7b008cd008ca07b3d07b7707b76008cb07b3907b7307b7207b71,
  0x7b8f07b6507b9e07b9d008c807b6007b9a07b9907b9807b6d07b2607b9507b9407b9307b2d07b9107b90008c907b5307b8d07b8c07b8b07b1e07b89,
  0x8c407b7c07bb607bb5008c507b7807bab07bb207bb007baf07b4c07bad07bac07b75008c607b6e07ba807ba707b5f07ba607b3707ba307b60008c7,
  0x7bd007bcf07bce07b5b07bcc07bcb07bca07b5907bc807bc707bc607b5507bc407bc307be707c6a07bc007bbf07bbe07bb407b5a07bbb07cc807bb9,
  0x7be907be807b7a07be507be407be307b7007be107be007bdf07b6907bdd07bdc008c207b9f07bd907bd807bd707b5e07bd507bd407bd307b9c07b63,
  0x7c0007bff07cae07c4a07bfc07cc207bfa008c107bbd07bf707bf607bf507b8307bf307bf207bf107b8b07bef07bee07bed07b7307beb07bf307bea,
  0x7c1807c1707c1607ba407c1407c1307c1b07c1507c1007c0f07c0e07b9a07c0c07c0b07c0a07ba507c0807c0707c0607ba007c0407c0307c0207b9c,
  0x7c3007bce07c2e07c2d07c2c07bbf07be807c2a07c28008bf07beb07c2507c2407c2307bb607c2107c2007c1f07bbd07c1d07c2907c1c07c1a07ba4,
  0x7c4807be607c4607c4507c4407bce07c4207c4107c4007bce07c3e07c3d07c3c07bf607c3a07c3907c3807bc307c3607c3507c3407bc507c3207c31,
  0x7c6007c5f07bf907c5d07c5c07c1207c5b07bf507c5807c5707c5607be907c5407c5307c52008c0008be07c1407c4e07c4d07c4c07bdf07c4a07c49,
  0x7c7807c7707c0607c7507c7407c7307c0207c7107c7007c8707c2707c6d07c6c008bc07c1107c2707c2f07c6707c6607c6507c89008bd07c2707c61,
  0x7c9007c8f07c9607c6e07c2407c1d07c8b07c6f07c8a008bb07c4b07c8507c8407c8307c0a07c8107c8007c7f07c0f07c7d07c7c07c7b07c0807c79,
  0x7c3b07ca7008c3008b907c6907ca307ca207ca107c3307c9f07c9e07c9d07c3307c9807c9b07c99008ba07ca607c5c07c9507c9407c9307c2107c91,
  0x7cc007cbf07cbe07c4907cbc07cbb07cba07c5807cb807cb707cb607c4d07cb407bfd07cb307cb107c5c07caf07bfe008b807c7107cab07caa07ca9,
  0x8b407c9c07cd607cd507cd407ce007d6707c6c07bc107d6507bdb07cd007bc207ccc008b507c8e07cd107cc7008b607cce07cc407c8a008b707c86,
  0x7cbc07cef07cee07cc607cf007cca07bb807ceb07cc3008af07cab07bf907ce5008b107ca707ce107a9e07a9f07c6307ce307d2207a8d07a9007c6b,
  0x7d0807ca507d0607d0507cf507d0407c8d07d0107cf6008ab07cc307cfd07cfc07cfb07c8607cf9008a907cf807d0007c9007cf407cf3008ad07cb6,
  0x8a707ce407d1e07d1d07d1c07ca707d1a07d1907d2107d1807ca707d1507d14008a807cd707d1107ca407d0f07d0e07d10008aa07cd007d0a07d09,
  0x7cc707d3707d36008a607cf907d3307d3207d3107cbc07d2f07d2e07d2d07cc707d2b07d2a07d2907cb507d2707d2607d2507cb207d2307d4007d4a,
  0x7d5007d4f008a507d1207d4c07d9f07d4b07d4907cdc07d4707d4607d4507ce307d4307cec07d4107d4207d3507d3f07cc807d1307d3c07d3a07d39,
  0x7d0707d6707d66008a307d2907d8107d5107d6307d6007d5f07cfc07d5d07d52008a407d1f07d6207d5907d5707d5607ce907d5407d5307d5c07cec,
  0x7d0c07d7f07d7e07d7d07d1007d7b07d7a07d7907d0307d7707d76008a207d3907d7307d7207d7107cfe07d6f07d6e07d6d07cfa07d6b07d6a07d69,
  0x7d9b0089f07d5b07d9507d94008a007d5707d9107d9007d8f07d4907d8d07d2407d8b07d8a07d8c008a107d4c07d8907d8607d8407d1007d8207d83,
  0x7d7c07d9307daf07ced07dad0089d07d6f07da907da807da707d3207da507da4008b207da3008b307d3c0089e07d6307d9d07d9c07ce807cdc07cd2,
  0x7d6307dc707dc60089a07d8907dc307dc20089b07d8507dbf07dbe07dbd07d4b07dbb07dba0089c07d7d07db707db607db507d4007db307db207de3,
  0x7da507ddf07dde008ae0089907dab07da007d2007d4e07dd907d8807d7507d65008b007dd607dd107d0d07d5f07dce07d0c07cf207cdb07dcd07dc9,
  0x7df807dc10089607dba07df407df307ded07df207d8e07def07dee0089707dc507db107dea008ac07de907de707db007d7907de407db907db100898,
  0x7e1007e1907d9c07e0f07da307e0d07e0b07e0907e0807d9b07e0607e0507e0a07e0307d9007e0107b0d07df70089407dc207dfc0089507dbf07df9,
  0x7e2907e2707daf07e2507e240089207de707e2107b0e07b1a0089307de207e1c07e3d07e1b0088b0088f07ddc07e1607e1507e1407dac07ddd07e12,
  0x6a9f06aa007e0d0089007e0107e3b07e3a07e3907dc607e3707e3607e3507dd307e3307e3207e3107db907e2f07e2e07e2d0089107df007e2a07b19,
  0x7e0407e2307e6e07b0a07de307a9907a4c07a13078cb078b60787a077db07e530779a077260088a0746a075f3075e50746b0754d07538074670742c,
  0x7e7007e6f07ea407e6d0833e07e0607e6a07e6907e6807df307e6607e6507e6407dee07e6207e6108346082fb07e5e07e5d0838c0885b07e5a07e59,
  0x7e8807e8707e1107e8507e84083710830d07e8107e80083640887f07e7d0083c07e4007e7a07e7c07e7707e770088907e3a07e7407e7307e7207e06,
  0x745107e6507e9e07e9d07e9c07e2d07e9a07e9907e9807e2807e9607e9507e9407e2107e9207e9107f0507eb707e8f074520833f07e8b07e1607e89,
  0x7eb807eba0088707e7a07eb407eb307eb207e4307eb007eaf07eae07e3e07eac07eab07eaa07e3707ea807ea707ec807e6607e7607ea307ea200888,
  0x7ed007e6607ece07ecd07ea507ecc07e6607ec907ea60088607e8b07ec507ec407ec307e5607ec107ec007ebf07e5507ebd07ebc07ed907ebb07e55,
  0x7ee807ee707ee607eee07e7807ee307ee20088307edb07ea507ede07e8e07edd0088407e9f07e900088507e9c07ed607ed507ed407e6707ed207ed1,
  0x7f0007e9c07efe07efd07efc07e9607efa07ef907ef807e8507f1307ef507e8207ef307ef207eb607ef607eef0088207eb207eec07eeb07eea07e75,
  0x7f180087f07edb0088e07f1507f1d07f1207f8107fbd07f0f07f0e0088007ed107f0b07f4f07f0a07f0807f0907e9507f060088107ec807f0207f01,
  0x7f3007f3107fb307f2e0087e07ef007f2a07f2907f2807ef307f2607f2507f2407ebe07f2207f2107f6807fe607ef507f1e07f1c080a50805507f19,
  0x7ee307f4707f4607f4507ed207f4307f4207f4107ed107f3f07f3e07f3d07ed607f3b07f3a07f3907ed307f3707f3607f5f0801607eec07ee407f32,
  0x7f6107f350087c07f2207f5c07f5b07f4d07f5a07ef307f5707f5607f5507ee207f5307f5207f5107ee107f4f07f4e0087d07f1107f4b07f4a07f49,
  0x7f7807f0a07f7607f7507f7407efa07f7207f710087a07f3407f6e07f6d07f6c07f0a07f1f07f6a07f200087b07f2b07f6507f6407f6307f0107f34,
  0x7f2007f8f07f8e07fa607f4407f8b07f8a07f8907f1d07f8707f8607ffc07fd607f7207f8207f840087807f4407f7e07f7d0087907f4007f7a07f79,
  0x7f7007fa807f8d0087707f6907fa307fa207fa107f2807f9f07f9e07f9d07f2d07f9b07f9a07f9907f2607f9707f9607f9507f2407f9307f9207f91,
  0x7f6d07fbf07fbe07fbd07f5107fbb07fba07f2d07f8c07fe307f7f07f2f07fb50087607f7707fb107fb007faf07f4107fad07fac07f7c07fab07f40,
  0x7f6507fd707f850087507f9907fd307fd207fd107f6b07fcf07fce07fcd07f6907fcb07fca07fc907f6707fc707fc607fc507f5407fc307fc207fc1,
  0x7ff007fef07fb607f8d07fec07feb07fea07f7907fe807fe707fe607f9207fe407fb90087407f8307fa607fdf07fde07fdd07f6c07fdb07fda07fd9,
  0x87207fcc08006080050800407f9307fb108002080010800007ffe07f9c07fff0087307fbf07ff907ff807ff707f9107ff507ff407ff307f8f07ff1,
  0x80200801f0801e07fcf0801c0801b0801a07fc708018080170802e0087107fd90801308012080110800807fa30800e0800d0800c07fa20800a08009,
  0x8038080f70803607fcb08035080340803207fc30086e0803007ff407ffb0802d0802b0802a07f8007fbb07f1008027080250802407f110087007fe6,
  0x7feb0804f0804e080d007feb0804d0804b08049080db080ad0804608045080560805408042080410804007fda0803e0803d0803c07fd70803a08039,
  0x8068080670806607ff9080640806308062080000806b080600805e0805d07fe70805b0805a0805907fe7080570805f0086b08019080530805208051,
  0x80800807f0800d0807d0807c0807b0803508079080780807708027080750800a080730807208071080040806f0806e0806d07ff7080740086a0802e,
  0x8034080970809608095080280809308092080910086c00869080530808d0808c0808b0801e080890808808087080250808508084080830800d08081,
  0x8075080af080ae080ad08039080ab080aa0806a080a908042080a6080c4080a40086808067080a1080a00809f080390809d0809c08055080430809b,
  0x80c8080c7080c608051080a307f1a07f1b0086308085080bf080be0086408081080bb080ba080b908046080b7080b60086508079080b3080b200867,
  0x80e0080df00860080a2080dc080b5080bd08127080b1080e1008610809a080d4080d808069080d3080d1080cf080ce0805b080cc080cb008620808e,
  0x80930085e080bb080f5080f4080f308080080f1080f0080ef08085080ed080ec0085f080af080e9080e8080e708072080e5080e4080e30811408073,
  0x80d50810f0810e0810d080a10810b0810a080fe0810908095080eb080de08106081030085c080c608100080ff0085d080c2080fc080fb080fa08111,
  0x812b08128081260815b081d40812308122080d6080f50086f080470085a080e10811b0811f081190811a0811808117080b4080d508048081130085b,
  0x81400813f0813e080f80813c0813b0813a0814200859080fc08102081360813408133080cd0814308130081310812e0812d080bf0086d0812f080c5,
  0x8220081580815708155081560815a080ea00857081150826c081f90814f0814d0814b082800824108148081470814c08145080df081510085808106,
  0x81700816f081090816d0816c0816b080fe081690816808167080ff081650816408163080f408161081ea08160081c2081ba0815c08236080ef08159,
  0x818808187081210818508184008550814708181081800817f081100817d0817c0817b08103081790817808177081070817508174008560813708171,
  0x852081640819e0819d08173008530815f081990819808197081250819508194008540815708191081900818f0811a0818d0818c0818b0812408189,
  0x8510817c081b6081b5081b40813f081b2081b1081b00814700866081ae081ac081ab081a00819c08143081a7081a6081a5081830813b081a2081a1,
  0x8195081d10084f08192081cc081cb081ca08155081c8081c7081c6081cf08156081c3081c40085008185081bf081be08193081bd0814a081ba081b9,
  0x81ad081e7081e6081e508171081e3081b8081e2081e00816a081de081dd081dc082050816d081d9081d8081d70816d081d5081d40816e081d20084e,
  0x8200081ff0818a081fd081fc081fb0818b081f9081f8081f7081b2081f508202081f4081f20818c081f0081ef081ee08181081ec081eb081f30084d,
  0x821c0821808216082170824f081a20821208213082110820f08199081b20820c0819e0820a0820b082090820d08206082950084c08231081c808201,
  0x81cb08221082080822f0822c081ce0822b081bc081d3082280822608225081bb08223082220084a081c10815d081e50821d0815e0084b081df08219,
  0x8248082470824608152081d0082430824208241081d70823f081240823e0823c081c10823a0823908238081d20812500849081f9082330823208231,
  0x82620825f08273082270084608260081e20825c0825908257082c20825a08254082530084708216082500825800848082120824c0824b0824a081dc,
  0x8278082770827608212082740814e0824e080f80825d00844082330826d08154008450822f082690826807f2c08267082bc081f0081ec0826308261,
  0x82920828f080150828e082130825e0828b082890803107f040828807e8d082a6082220744d082820744e0828300843082420827c0827b0827a08200,
  0x82a808235082040814a0084108268082a2082a1082a0082340829e0829d0829c0822c0829a08299082980822508296082070084208258081e908138,
  0x82c007f1707f0d082bf07ef107ee107ea107e6c074590745a0827e0084008279082b3082b2082b108245082af082ae082ad0823d082ab08149082aa,
  0x82d808273082d6082d5082d408272082d2082d1082d00826a082ce08252082cd082cb08255081460812108262080ca0804408256082c60083f08286,
  0x82f00827d082ee082ed082ec0828a082ea082e9082e808273082e6082e5082e40827d082e2082e1082e00827a082de082dd0830108294082da082d9,
  0x82a1082db0830708305083040829a08302082dc0083e082c4082fe082fd082fc08284082fa082f9082f808288082f6082f5082f408281082f2082f1,
  0x82b10831f0831e0831d082aa0831b0831a08319082a6083170831608315082b30831308312083110829c0830f0830e0830d082a40830b0830a08309,
  0x82c6083370833608335082cd08333083320834d082de0832f0832e0898f08c590832b0832a0083d082ed083270832608325082ad083230832208321,
  0x8936089a10834e08331007e0083100834a0835f082d6083470083a0830a083440834308342082dc0834007e79083490833d082c80833b0833a08339,
  0x836808367082f408365083830083808327083610836007e60089100835d082f30835b0835a08359082e5083570835608355082e4083530835208330,
  0x7e82083170837e0837d0837c083180837a08379008360833c083760837508374083010837207e83008370833407e5f0836e0836c0836b082f808369,
  0x8398083780831e0839508394083ac0834808391083900838f0831c0838d083ca0838b008350834e083880838708386083130839d083840838208381,
  0x83b00833908392083ae08393008330836f083a9083a8083a70832d083a5083a4083b908355083a1083a00839f0832c083bc00834083600839a08399,
  0x83c8008310838b083c5083c4083c30835d083c1083c0083bf08382083bd08348083a2083bb083a3008320837c083b6083b5083b40834e083b2083b1,
  0x83e0083df083de0836b083dc083db083ea083ef008300839c083d6083d5083d408370083d2083d1083d00835d083ce083cd083e70837d083a2083c9,
  0x83f8083cb083f708383083f4083f30841b083c9083f00840e0082b083b2083da083ec0082c083ae083e8083cc0082e083aa083e4083e3083e20837e,
  0x83e90840f084120840d083ab0840b0840a084090839c0840708406084050844d0839108402084010082a083c4083fe083fd083d9083fc08388083f9,
  0x84280842708426083c2084240842308422083c0084200841f0841e083b10841c0842c0841a00829083dd084170841608415083b1084130843808453,
  0x84400083b083d70843d0843c0843b083c7084390845700827083fb08435084340843308419083c0084300842f0842e083cc083f1083f200828083ee,
  0x845808461008240841a0845408411008250841608450084560844f0844e083da0844b0844a008260840d084470844608445083d0008390844308441,
  0x84350846f0846e0846d084070846b0846a08469083f2084670846608465084ef084630840308462083ff0845f0845e08472084100845c0845a083e7,
  0x84a00841608486084850848408422084820848700821084440847e0847d0847c084160847a084790847808401084760847508474084120848100823,
  0x84a40849d0849f0081e084610849b0849a084990842c084970849608495084220849308492084ab084480848f0848e0081f084510848b0848a08489,
  0x84b8084bd0081c0847a084b4084b3084b208446084b0084af084ae08441084ac08490084910081d084b7084cc0845c0846d084a5084a3084e30847d,
  0x84d0084a608460084cd084a70081a0848f084c9084c8084c708454084c5084c40081b08487084c1084c0084bf084d608450084bc084bb084ba08447,
  0x84e8084e7084e608473084e40082d08502084a200819084a4084e1084dd08479084de084db084d90850a084a8084da0082f084d508463084d2084d1,
  0x84c5084ac084ff084fd084fc08489084fa084fe084f8084f9085820851d084f4084f3084a1084f60848d00818084b3084c3084ed084eb084ea08480,
  0x84a60851708516084d7085190851308515085b70854f0850f0850e00815084d10850b084d80852100816084cc085060850508504084910850800817,
  0x8530084bd085420852d0852e0852b0852a0852c08528084b8084c80852608524085c108559085250852008553085100851d0851c085a5084ab0851b,
  0x854808545085470081208509085430854208541084db0853f0853e0853d084d9085340853b0853908538084d6085360853500813084f80853208531,
  0x85610855f0855e084f80855c0855b0855a084e7085580855708556084f4085540851f0081108516085500854f0854e084d90854c0854b0854a084e4,
  0x85780850e085760857508574085000857208571085700850a008220856e0856c0856b08502085690856808567084f2085650856408563084f40851e,
  0x85900858f0080f085520858c0858b0858a0851b08588084f508587085850851508583084f700810085450857f0857e008200857d085080857a08579,
  0x853a085a7085a6085aa085a40858e085ea0877e085a00859f0080e085620859c0859b0859a085260859808597085960852008594085930859208525,
  0x85100080b08583085bd085bc085d3085bb08553085b8085120080c0857a085ba085b4085b2085b10080d08574085ae085c8085ac08539085ad085a9,
  0x814085d8085d6086980878308564085d2085d1085d008560085ce085cd085cc0855908522085ca0080a0858c085c6085c5085c40855d085c208523,
  0x85f008581085f2085ed0857a085eb08609085ee085e808611085e70857c085e4085e308602085ef0856f085df085e0085dd085dc085de085da08567,
  0x860a08607086060859608604086030860800808085c5085ff085fe085fd08585085fb085fa085f908589085f7085f6085f508582085f308824085f1,
  0x86200861f085af00806085e10861b0861a086190861d085a6086160861508614085b2086120861700807085d40860e0860d0860c085940864e08621,
  0x85f708637086360863508610085c6085e6088070863008632085bd0862d0862e008090862b0862c08818087a8085b2086260862408833087ec08625,
  0x8651085e00865000805086110864b0864a08649085d1086470864608645085d5086430864208641085ce0863f0863e0863d085ca0863b0863a08639,
  0x85f9086670866608665085f2086630866208661085ee0865f0865e0865d0861b0865b0865a08659085ea086570865608655085dd08653086520866d,
  0x861f0867f0867e0867d0860e0867b0867a086790860108677086920867608674086750080408636086700866f086040866e085f50866b0866a08669,
  0x869a00803086bd0865b08694086240869308691086190868f0868e0868d0861d0868b0868a086890861608687086860868508612086830868208681,
  0x86b00863d086ae086ad086ac08639086aa086a9086a808646086a6086a5086a408635086a2086a1086a0086280869e0869d0869c086ea0862c08699,
  0x86c8086c70865d086c5086c4086c30864d08677086c0086c1086be086bf0080208680086ba086b9086b808640086b6086b5086b408644086b2086b1,
  0x87390866b086de086df086dd086db08671086d9086d8086d708664086d5086d4086d308670086d1086d0086cf08665086cd086cc086cb0865e086c9,
  0x86f8086f7086f608685086f4086f3086f2086b70867f086ef086ee086f0086ed0868a086ec00801086ad086e7086e6086e508677086e3086e2086e1,
  0x87100870f0870e086a70870c0870b0870a086a4087080870708717086aa0870408703087020869308700086ff086fe0868e086fc086fb086fa0868a,
  0x872808727086b2087250872408723086ba08721087200871f086b7087050871d0871b0871a086b0087180870600800086da0871408713087120869d,
  0x87400873f0873e086ef0873c086cb0873a0873b007fe08798086fc0873508734086cd08733086be08730087320872f0872d0872e007ff086ef08729,
  0x87590875708756086e308754087530875208710087500874f0874e086d90874c0874b0874a086e3087480874708746086e008744087430876a0871d,
  0x8741087700876e0876d087030876b08742007fd087930872d087660876508764086ec087620876108760086f00875e0875d087670875c086e80875b,
  0x87880878708786087130878408783087820870f087800877f0877e0873c0877c0877b0877a087050877808777087760870d0877408773087720870a,
  0x87a0087320879f007fa087610879e0879b087990879a0874d08796007fb0875908795007fc08756087900878f0878e087160878c0878b0878a0871a,
  0x87b8087b7087be087b608745087b5087b3087b1007f808774087ae087ad087ac0873d087e3087aa087a8087a708737087a5087a4087a9007f908766,
  0x87d0087ca087b00875d087cc087cb0879d007f60878d087c7087a3087c608672085e9087c40875c085a3087c0007f708782087bc087bb087ba0874b,
  0x85d4087e808785085d5087e50864d007f5087a6085a1087e0087de087dd08765087db087da087d908769087d7087d6087d50876208792087d3087d1,
  0x8800087ff087fe08786087fc087fb087fa087970878a0872b087f7087f5087f40878108738087f2086e9086bc087f0087ed086970877a087ea087e9,
  0x8628007f2087db088150881408813087a00881108810007f308826087d30880c0880b0880a0879b088080880d007f4087ca0880408803088020878e,
  0x87f50882f088310882d087ba0882e0882b0882908828087c40882a087be007f1087e8088220882108820087af0881e0881d0881c08627087ac08819,
  0x884808847087d4087e208850088440884208841088450883f088430883e087d90883b0883a0880f08863087d208837007ec08836087f908832007f0,
  0x8861087f60885e0885d007ed007ee0881f08859088580885708622087ed088540885308852087df08623007ef088130884d0884c088200884b0884a,
  0x883d0887708876088750880008873088720887108801088790880a088850886d0886b0886a087fd0886f088670886c088810884908868088620883d,
  0x882e0888f0888e088900888c08819088ae0888a08888088ac08858088890888d0881708882007ea088450887f0887e0887d088170887b0887a007eb,
  0x88a8088a70883a0886e088a4088a3088a20883c088a50889f088a00889e0882f0889b0889a007e60885d088970889d0889608894088950882108891,
  0x83c70838a07e5b07e5c088840885708887007e70887d088b7088b6007e80887908864088b3088b1088b00884608866088ba007e508870007e9088aa,
  0x88d8088d7088d608874088d4088d3007e3088990885c08839085e2088960859e0850d084f20845d08471088cc08886088c6088c4084490840007e7e,
  0x85b308501088f0084b608480088ed088ea0887d0848d08437083ee088e8083d80839c0836307e7f088b5088e4088de08876088dc088db088da0886b,
  0x89080890708894089050890408903088a108901089000892908c45088fd088fc007e1088bf088f9088f8088d2088f70886508835088060860108890,
  0x8920088ad0891e0891d0891c08931088ac089190891808917088a7089150891408913088a608911088ba0890f0890e0892b0890c007ce088cf08909,
  0x88d7089370893b007df088f90893308932007cb088f50892f0892e0892d08915088b30892a08a7c08928007cc088eb089250892408a3a0892208921,
  0x88dd0894f0894e0894d088dd08950007de0890e089480894708946088e4089440894308942088d1089400893f0893e088cd0894b0893c0893a08939,
  0x896d007dd0892b089650896408963088fb08961089600895f088f00895d0895c0895b088f1089590895808957088ee089550890c089540895208953,
  0x8980089790897f0897d0890d0897b0897a007db0893d089770896808969007dc007d80893808937089710896f089700896e089030896b0896a08976,
  0x89980899708996089230899408993089920891f08990089ae007da089520898c0898b0898a0891a0898808987089860891108984089830898208911,
  0x89b008a78089c008956089ac089ab08a07089a9007e408a1d007d7089b40896a089a3089a4089a20899a089a00892f0899d089a10899c007d90895e,
  0x89c808954089c6007e2089c5089e608983089c1089af007d608983089bd089bc089bb08959089b9089b8089b708949089b5089b4089b30894b089b1,
  0x89a5089df089de089dd0896b089db089da089d908973089d7089d6089d508966089d3089d2089d10895c089cf089ce089cd089ad08967089ca089c9,
  0x89f8089f7089f608987089c2089f4089f2089f10897c089ef089ee089ed08987089eb089ea089e908975089e7089c3007d4089a9089e3089e2007d5,
  0x893508a1008a0e0834f0899908a0b08a0a08a09089a308351007d2089ca08a0408a03007d3089c608a00089ff089fe0898c089fc089fb089fa08994,
  0x89ba089a608a2708a2508a24089c208a2208a2108a20089b608a1e089a8007d1089e008a1a08a1908a18089e10899b089aa08967089b60894a08a12,
  0x8a4008a3f08a3e089d808a3c08a3b08a4b089de08a0208a3808a3608a35089cf08a3308a3208a31089c408a2f08a2e08a2d089c508a2b08a2a08a29,
  0x8a5808a57089ee08a5508a5408a53089eb08a3908a5108a4f08a4e089e408a4c08a3a007d008a0e08a4808a4708a46089d108a4408a4308a42089db,
  0x8a7008a6f08a0b08a6d08a6c08a6b089f808a6908a6808a67089fd08a6508a6408cc308d0a08a6108a60007cf08a2308a5d08a5c08a5b089e608a59,
  0x8a1608a8708a8608a8508a1b08a8308a8208a9208d1508a9508a7e08a1c08a99007ca08a3f08a7908a9608a77007cd08a7f08a74007a508a3708a71,
  0x8aa008a3708a9e08a9d08a9c08a4408a9a08ab508a2808a3708a9708cb108d3008a9408a93007a408a5508a8f08a8e08a8d08a2908a8b08a8a08a89,
  0x8ab808ac208ab708ab608ab4007c808a770892308ab108aaf08aae08a4508aac08aab08aaa08a3608aa808aa708aa608ac2007c908a6808aa208aa1,
  0x8a6808acf08ace08acd08a5908acb08aca08ac908a6708ac708ac608b1708ab108ac3007c708a8608ac008abf08abe08a5508abc08abb08aba08a46,
  0x8ae8007c308aab08a8f08ad808ae408ae2007c408aa508adf08ade08afa007c508aa008ada08ad9007c608ae508ad608a9c08b0008ad408ad208ad1,
  0x8b06007c108bd408afd08a8a08afb08ac308af908af808af708a8508af508af4007c208ab708af108af008aef08a7c08aed08aec08aeb08a8908ae9,
  0x8b1808add007c008ada08b1408b1308b1208af308aa108b0f08ae708b0e08b0c08aa208b0a08b0908b0808b2808b9e08b0508b0408a9b08b0308b02,
  0x8b3008ad308b2f08acc08b2c08b2b08b3d08ada08ad5007bf08aeb08b2508ac408b2408b2208aaf08b2008b1f08b1e08abc08b1c08b1b08b3908b48,
  0x8b4808ae608b4608b4508b4408ae008b4208b41007bc08b0408b3e08b2a007bd08b0008b3a08b4a007be08afc08b3608aff08b3508b3308ac008b31,
  0x8b6008b68007bb08b2208b5c08b5b08b5a08ae708b5808b5708b5608af408b5408b5308b5f08b5308b5008b2908b4f08b4d08ae008bab08b4b08b49,
  0x8b7808b7708b0608b7508b7408b7308b0d08b7a007ba08b3408b6e08b6d08b6c08b0608b4008b7108b6a08b6708b6608af708b6408b6308b6208af8,
  0x8b1e08b8f08b8e08b8d08b1d08b8b08b8a08b8908b1408b8708b8608b8508b2308b8308b2d08b8208b8008b0d08b7e08b7d08b7c08b8108b1a08b79,
  0x8b7008b5e08ba808ba508ba408b3e08ba208ba108b5108ba008b3a08b9d08b9c08b9b08b2e08b9908b9808b9708b52007b908b5908b9308b9208b91,
  0x8bc008bbf08bbe08b1908b6a08bbb08bba08bb908b4a08bb708bb608bb508b4b08bb308bb208bb108b4808baf08bae08bad08b5808b1a007b808b6e,
  0x8bd8007b608b9b08bd508bf1007b708b9708bd108bd008bcf08b6908bcd08bcc08bcb08b6708bc908bc808bc708b6508bc508bc408bc308b3808b52,
  0x8bf008bef08b7b08bed08bec007b408baf08be908be808be708b7d08be508be408be308b7008be108be008bdf08b6a08bdd08bdc08b87007b508bda,
  0x8c08007b308bcb08c1308c0508c0408c0308c0108b9e08bff08bfe08c0208b9608bfb08bfa08bfd08bf908b8308c0c08bf508bf408b8308bf208bf6,
  0x8c2008bb008c1e08c1d08c1c08ba908c1a08be308c1908c1808c16007b008bd9007b108bd708c1108c1008c0708c0f08ba708c29007b208bcf08c09,
  0x8c3808bd708c4e08c3b08bc208c3308c3208c3108bbc08c2f08c3608c2d08c2c08bc808c2a08c2e007af08bec08c2608c2508c2408bb308c2208c21,
  0x8c0d08c4f007ad08c1208c4c08c4b08c4a08c66007ae08c3708c0c007ac08c0908c4308c4508c4208c4108c3f08bd508c3d08c3c08c4008bc808c39,
  0x8c0408c6708c6b007aa08c2908c6308c62007ab08c2508c5f08c5e08c5d08c1708c5b08c0d08c3508c5908c5708c5a08c5508be608c5308c5208c65,
  0x8c80007a908c5008c6108c8108c1408c7a08c7908c8a08c7808c4308c7508c1608c7408c7208c2c08c5108c7008c6e08c6d08bfe08c7308c6a08c69,
  0x8c37007a708c5b08c9508c9408c9308c7f08c2a08c9008c8f08c8e08c1a08c8c08c8b0892708c9708c88007a808c8708c0b08c8408c4b08c8308c82,
  0x8cb008caf08cf108ca908adc08aa408a7b088fe088ff08cac08ca608d16007a608c6808ca208ca108ca008c3808a7608c9e0890d0832c08c9c08c99,
  0x8beb08c6608bdb08d2708cc608cc4007a308c8608ae108ab308ac50890b08c480832d08cc008c0b08cb908cb708c4408bd308cb508cb308cb208c50,
  0x8ce008c6f08cde08cdd08ce408c9308cda08cd908d0408e8308cd608cd508c5608ceb08cd208cd108c6908ccf08cce08c1508c2808ccd08c1708bd7,
  0x8cbd08cf708cf608cdc08d0c08c8e08cf2007a208cb508cef08cee08ced08c8708cf508c8708ce908ce808ce708c7408ce50079508ca808ce208ce1,
  0x7a108cd408d0e08d0d08cae08d1408d0a08cf908d0908d0708c9208d0508d9708d030079308cc608d0008cff08cfe08cdb08c8d08cfb08cfa00794,
  0x8cb808d280079f08cea08d2408d2308d2208cb108d2008d1f08d1e08cab08d1c08ca408d1b08d1908cb308d1708ca5007a008cd908d1308d1208cad,
  0x8d4008cd908d3e08d3d08ce108d3b08d3c08d3a0079d08cfc08d3608d3508d3408cd708d3208cc108d310079e08cf308d2d08d2c08d2b08cc908d29,
  0x79a08d1c08d5608d5508d59007990079b08d1608d5008d4f08d4e08ce708d4c08d4b08d1708d4908d4a08d4808d1108d6e0079c08d0808d4208d41,
  0x8a6208d7108a630079808d3108d6b08d6a08d6908d7e08d0008d6708d6508d6608d6308d6208ced08d6008d5f08d5e08cfc08d0108d5b08d5c08d5a,
  0x8d4608da008d5408d2f0079608d4808d8208d8108d8008d0d08d3808d5308a9108a8008d2608a810079708d3c08d7608d7508d7408d0108d7208cc2,
  0x8daa08d9f0079008d6208d9c08d9b08d9a08d5d08d2708d9808d960079108d5908d9308d9208d9108d1e08d8f08d8e08ddd08e3208d8b08d8a08d58,
  0x8db80078f08d7b08db508db408db308d4008db108db008daf0078c08d3c08d7208dac08dab08da90079208d6c08da608da508da408d3a08da208da1,
  0x8d5c08dcf08dce08dcd08d5708dcb08dca08dc908d6508dc708dc608df408f8508dc308dc208dd908dc008db708d4d08dbd08dbc08dbb08d4808db9,
  0x8de808d8408de608de508f5c08f8c08de20078d08e4808da508dde08ddf0078e08da008dda0077908d9d08dd708de108f2108d6f08dd308dd208dd1,
  0x8e0208dff08e0008d9d08dfd08dfc08dfa08ec10077708dbc08df608df808f2208d8e08df208df108df008d7b08dee08ded08f4808ed208dea08de9,
  0x8e1808e1708da408e1508e1408e1308da008e1108e100078b08dd308e0d08e0c08e0b08d9808e0908e0808e0708d9408e0508e0408e1b08e0308dc0,
  0x8e3208e5508e3008e0608e2d08e2c08e2a0078908db808e2708ded08e2508e2608e2308e0f08db908e2408e2008e1e08e1f08dac0078a08ddf08e19,
  0x8e4a0078708e0b08e4508e4408e7d08e4208dcf08e4008e4308dca08e3f08e8d08e3d08e4b08e3a08e3908e370078808e3808dc508e3308dfa08e31,
  0x8dec08e5f08e5c08e5e0078508e2008e5a08e5908e5808df108e5608e600078608e1808e5208e3608e5108e4f08de808e4d08e4c08e5008e4b08dd9,
  0x8e7808e2e08e7708e7508e0f08e7308e7208e7108e0308e6f08e6e08e6d08e0308e2f0078408e2e08e6808e6708e6608df208e6408e6308e6208e6b,
  0x8e9008e1d08e8e08e3c0078208ea408e5008e8908e8a08e8708e1408e8508e8808e8308e8408eaa08e1008e4408e7f08e7e08e7c08e540078308e3e,
  0x8e810077f08e4708e6b0078008e6808ddc08ea208ea008e9f08e2c08e9d08d8c08e9c08e9a08d8d0078108e5c08e9608e9508e9408e2108e9208e91,
  0x8ec008e4f08ebe08ebd08ebc08e4608eba08e5108eb808eb908e8008eb708eb408e4708eb208eb608e4d08eb108eda08e3b08e6908eaf08eab08ea9,
  0x8e9d0077b08ed708e9b08ed408ed508ed208ed308ed008e6a08ece08e5e08ecc08ecd08eca08ecb08e6408ec808ec708ec50077e08e8808ec208ec1,
  0x8dfb08ef308e8908da808d9508eed08d0208eea08cd708cd80077c08eaa08ee408ee308ee208e7808ee008edf08ead08ede08e6a08edb08eae0077d,
  0x77a08ecc08f0608f0508f0408e9e08f0208f0108f0008e9808efe08efd08efc08ee808ec408ea808e9708e7b08e3608ef708ef408e2908e1d08df9,
  0x76008ee408f1e08f1d08f1c08eb608f1a08f1908f1808ea308f1608f1508f1408e9e08f1208f1108f1008eac08f0e08f0d08f3f090ee08f0a08f09,
  0x8f3808f3708ec208f3508f3408f3308ebd08f3108f3008f2f08ecb08f2d08f2c09041090ff08f2908ec808f2708f2608f2508f4308df508dd608f28,
  0x8f5008f6f08f0408f6c08deb0077408f0f08f4908dec0077508f0b08f4508f4d08f4408f420900e08f400075f08f0308f3d08f3c08f3b08ed508f39,
  0x8f6808f0408f6608f6508f6408ef108f6208f6108f7308f0908f7708f5e08f5d0077308f1f08f5908f5808f5708ef308f5508f5408f5308ee008f51,
  0x76f08f4408f4e08f7e08f7c08f1608f7b08f7a08f0b08f780077008f3a08f7408f600077108f3608f7008f0f08f4f08f6e0077208f3008f6a08f69,
  0x8f9908f1e08f9608f9508f9408f3008f9208f980076c08f5408f8e08f9e08f2908f8d08f8b08f8a08f890076d08f4b08f8508f8408f5f08f8308f91,
  0x8fb108faf08fae08f3d08fac08fab0076a08f6e08fa808fa708fb908fa608f2b08fa508f3208fa308fa108fa008f9f0076b08f6108f9b08f9a08fb0,
  0x8f5608dc40076808f8a08fc908fc408fc208fc308f5d08fc708fbf08fc108fbd08f5608fba0076908f7d08fb708fbe08fb608fb408fb508f4d08f4f,
  0x8fe008f7c08fe108fde08fdc08fdb0076608f9e08fdd08fd808fd60900908fa508fd508fd308f6008fd108f800076708f9208fcc08fcb08fd008fca,
  0x8ff90076408f8708faa08fbb08f7608f5b08ff308de308ff008de408fee08f4c0076508faf08f2308fe908dc508fe708fe508f6b08fe308f7308fe2,
  0x76208fd40900e0900d0900c08f9f0900a08fd70076308fcc09006090050900408f9708fcf0900208fbb0900008ffe08f9008f9d08ff708ffc08f90,
  0x2277019fb0143d013d30100500776007780903d0902008fb10901e0901d0901c08fac0901a090190901808fa509016090150907808fd40901309070,
  0x75e090040903e08f0808dc108d8908a5f088fb07e580744a06a76069d00656e065250515004f1c04ebb03fa603ea003a9103785033970338a030f1,
  0x7e780745606a9c069a00657a060ca0517604ef50407603f7d03f6e03eac03a83037830312502bc002bd50228901a1301043010170908a0905d09042,
  0x90140075d090330906d0906c0906b08ffc09069090680906708ff709065090640906308ff009061090600905f08ffd08f2008dd508cd408a7308329,
  0x9010090880075a0904a0908409083090820900d090800907f0906c0907d0076e0907c0907e0900a0075b090730903c09075090740075c0903709071,
  0x902e0909f0909e0909d090280909b0909a090fa0902609097090e80909600759090580909209091090900901b0908e0908d0908c0901c0908209089,
  0x90b8090b7090b60905e090b4090b3090b209042090b0090af090f00903b090ac090df090ab007580906d090a7090a6090a50903e090a3090a2090a1,
  0x90d0090cf090ce0905d090cc090cb090ca09076090c8090c7090c60905d090c4090c3090c20904d090c0090bf090be09059090bc090bb090ba09050,
  0x909900756090ab090e5090e4090e309081090aa090e1090ae00757090a2090dc090db090da09074090d8090d7090d609072090d4090d3090d209070,
  0x91000910a090fe0909a090fc090ff090fb00754090bd09095090f709103090f409090090f2090f5090f100755090b3090ed090ec090eb09089090e9,
  0x751090dc091160911509114091180909a0911209110090a80910e007610910d0911100752090ce0910809107091060908c091040911b00753090c6,
  0x91300912f0912e090bb0912c0912b090d8091290912a0912809126090b509124090c60912309137091200911f090ae091220911d0911c0911a090a7,
  0x910d09147090d909145091460914409142090de09140091430913f0074f091010913b0913a09139090d2090ef00750090fa091340913309132090bf,
  0x74c09124091020915e0915c0074d0911f091590915809157090e4090a90907a0901108f0b0915508f0c091500914e090ea0915b0914c0914a0074e,
  0x9178091660916b0910d091740913d0916c0074b09135091210916f0916d09173091070916a0910b090f90916909094090860904008f2a0914908f2b,
  0x74a091400917a09179]

/-- `named_character_reference_idx_tbl` (1214-4530): `m_base` of the nodes, plus 4096. -/
def baseTbl : Table := ⟨20, 33148, baseData⟩

def checkData : Nat := pack 512 [
  0x1e001d0067001b001a0394001800178043001500140066001200110075000f000e0076000c000b00640009000803b800060005802300030002000100000000,
  0x3b003700280016007400390038039500360035006c0033003200790030002f006b002d002c0073002a002903b9002700260068002400230078002100200077,
  0x550082005c005b009b0059005803ba0056005400dd005300a900510050004f00c8004d004c0396004a00490048007000460045007a004280440041006f003f,
  0x39c005f007c007b0398004400310022001f000d0010003a002b007100cd00470040006d00690034002e00ab00620025001c00130061000a004300650060005e,
  0x4e009d009c006a005a0099009800970096009500940093009200910090008e008100d9008c008b008a0089008800870086008500840072007e005d0080007f,
  0xbb00bd00bc00a000ba00b900b800b700b600b500b400b200b1007d00b000af039900ad00ac00aa005a00a8004e00a700a600a500a400a300a200a1008f03bd,
  0xc300dc004e00db00da00d8004e00d700d600d500d400d303be00d100d000cf00ea00cc004e00cb00c400c900c7004e00c600c5039a00be03c300c100c000bf,
  0xfe00fd00fc00fb00fa00f900f800f700f600f200f40133013e00ca00f000ef039f00ed00ec00eb00e900b100e800e700e600e300e400e100e200de00e000df,
  0x10b0107011c011b011a0119011801170116011501130066011201110110010e010a010d010c011e012801090173018200f50105010403a001020101010000ff,
  0x13d00f1013c013b013a01390138013701360135013400f300f101310130012f012e012d012c012b012a012900e5010703a4006801240123012201210120011f,
  0x15b015d01c201c501690159015803a10172015501540153015201510150014d014e0149014c014b014a014701480145014601420144014301270141014003c4,
  0x17e017d017c017b017a01780171017703c50175017401080106010f03c6016f016e016d016c016b016a0157010f016701660165016101a9015e00650160015f,
  0x28001bb019c019b03a201990198019300960195019401910192018f01ac018c026a02730179018b018900890188018701860185018401810163010601800164,
  0xbb016301bc01be016301b901b801b701b601b501b401b301b201b101b001af01ae01ad01ab016301a500a8016301a701a601a101a401a301a2019e01a00277,
  0x20401dd01dc01db01da01d901d801d701d601d501d401d3024401d101d001cf01ce01cd01cc01cb024301c901c801c7023c0249015a01c3015c015a01c001bd,
  0x1fe021001fc01fb01fa020f01ef01f701f001f501f401f3020d01f101e801c601ee01ed020c01ea00e901e901e201e7020b01e501e401e30209020a01e001df,
  0x21e0246021c021b021a0219021802170216025002140213021101c401f801e101e101e101e101e101e101e101e10182020601ff020301dd02020201020e00ff,
  0x23e023d023b01c4023a0239023802370236023502340233025102240230022f02250224022c022b022a0229022802270226022e023202230222024a0220021f,
  0x25a025d025c025b0257025802ed030901a80255025403a30252024e01c402140247024d024c024b019a01c401c4014503c7021c024201c401c402410240023f,
  0x259027d027c027b027a02790278019f019d027502740272018d026d0270026f026e0269026c026b018e018d026802650266025e02640263024f02610260025f,
  0x29e029d0311029b029a0299030d0297027f03180294029302920291028b028f028e028d028c0287028a02890288028402860285028302620282028103a5019d,
  0x2be02bd02bb02a002ba02b902b802b602af02b502b402b302b202b102b002ae03c9027102ac02ab02aa02a902a802a702a6031702a402a302a202a1029f0296,
  0x2de02dd02dc02db02d502d902d802d702d602d102d402d302d202cf02d002cd02ce02c902cc02cb02b702c402c802c702c602c502c302c002c202c102bf02bc,
  0x2fd03ca02fc02fb029002f902f802f702da02f502f402f302f202f102f002ee02ec0319025602eb02ea02e902e802e702e602e502e402ca025602e102e002df,
  0x3030302031c031b031a031602ec02560256031503140313033103420256030f030e03a60256030b030a030802560307030603050304031e032e030102fe02ff,
  0x33e032a033c033b033a0339033803370336033503470333033203120310032f032d0302032c032b03290322032803270326032503240323032103cb0320031f,
  0x35e035d035c0357035a035903580354035603550353034e0352035103a7034f034d0348034c034b034a034903440370031003450341034303400310033d033f,
  0x37e03a8037c037b037a037903780377037603750374036c03720371036f0345036e036d036b0364036303690368036703660365035003cc03620360035b035f,
  0x19039d039b000703970019001900190393001900190019039203910390038f038e03bb03c1038b038a03aa038803870386038503840383038203810380037f,
  0x3bc00070007038d038c00070007000703b603b503b403b303b203b103b003af03ae03ad03ac03ab03a90019039e001900190019001900070019001900190019,
  0x3de03dd03dc03db03da046c047b03d703d609ce09cf0063802403d103d003cf03ce03cd03c8000700070007000703c20007000700070007000703c0038c03bf,
  0x3fe03fd03fb02fb03fa03f903f503f602da043503f203f303d303e103f003ef03ee03ed03ec03eb03ea03e903e803e703e603e503e403e303e20428042a03df,
  0x41e041d041c041b041a04190418041704160414041303f8043804110410040f040e040d040c040b040a040904080407040604050404040304020401040003ff,
  0x9e3043d8025043b043a0439043703e00436043403e00433045c04310430042f042e042d042c042b042903e0042003e0042604250424042304220421041f0415,
  0x45b111a043e0431045a0459045804570456045504540453045204510450044f044e044d044c044b044a044904480447044604450444046304720441044009e1,
  0x47e047d047c047903d8037904780477047604750474047304710442048e048f036e046d03d903d8046a0469046804800366048104640443044204610460045f,
  0x49e049d049c049b04c604990498049704960495049404930492049104900470046e046e048c048b048a04890488048704850385048404830482046604650465,
  0x4be04bd04bc04bb04ba04b904b804b704b604b504b404b304b204b104b004e804ae04ad04ac04ab04aa04a904a804a704a604a503d504a309d004a104a0049f,
  0x9d204dd04dc04c404c304d904d804d704d604d504d304d2043f09e504d004cf04ce04cd04cc04cb04ca04c904c804c704c5049904db04e504a404c104c009d1,
  0x4fe04fd04fc04fb04fa04f904f804f7058104f504f404f304f209d304f004ef04ee04ed04ec04eb04ea04e904e704ae04e604e404c304e304c2058b04e004df,
  0x51e051d051c051b051a0519051805170516051505140513051205110510050f050e050d050c057905090588050704d409e605050504050305020501050004ff,
  0x53e053d053c053b052e059205380537053605350534053305320531052f0505052d0524052c052b052a0529052805270526052504e2058e0522052105200530,
  0x55e055d055c055b055a0559050a058a0556055505540553055205510550054f054e054d054c054b054a0548058c0546054405900543053a054205410540053f,
  0x57e057d057c057b057a0567050805770576057505740573057205710570056f056e056d056c056b056a0569056805660558056505640563056205610560055f,
  0x59e059d059c059a05470599059805970596059505940593059104e1058f04e1058d04e1059b054704e105080587050805860549054705830582058004e10585,
  0x5d005bd05bc068605b8069205af05b705b605b505b405b309d805b105b004f605ae05ad05ac05ab05aa09d605a805a705a405a505a305a205a1050b09ef059f,
  0x5ba069605db05be05da05d905d805d705d605d505dc05d305d205d105cf05be05ce05cd05cc05cb05ca05c905bf05be05c605c505c405c305c205c105c005c8,
  0x5fe05fd05fc05fa05ef05f905f805f705f605f505f405f305f205f105f005e1061005ed05ec05eb05e905de05e805e705e605e505e405e305e20600060c05df,
  0x61e061d061c061b061a06190618062a062d05ea0697061306120611060f05e0060e060d060b05e0060a06090608060706060605060406030602060105fb05e0,
  0x63e063d063c063b063a0639063806250698063506340633063206310630062f062e062c0616062b06170616062806270626062406210623062206200615061f,
  0x65e065d065c065b065a0659065806570656065506540653065206510650064f064e064d064c064b064a0649064606470643064506440642063706410640063f,
  0x67e067c0671067b067a0679067806770676067506740673067206480699066f066e066d066c066b066a0669066806560666066506640663066206610660065f,
  0x69e069d069c069b069505b905b905b905b905b906940693069105b90690068f068e069a068c068b068a068906880687068305b90684068006820681067d067f,
  0x6be06bd09db06bb06ba06b906b806b706b606b506b406b306b1076606af06ad06ae05bb06ac077f078906a906a809d906a606a506a406a306a206a106a0069f,
  0x6de06dd06dc06db06da06d906d806d706d606d506d406d306d206d106d006cf06ce0703070a06cb06ca06c906c606c707c106c406c206c3075b06c107a807b2,
  0x6fe06fd06fc06fb06fa06f906f806f706f606f506f406f306f206f006ea06ef06ee06ed06ec06eb06cd070b06e806e706e606e506e406e306e206e106e006df,
  0x71e071d071c071b071a0719071807170716071507140713071207110710070f070e070d070c070906cc06cc0708070707060705070406f106cc0701070006ff,
  0x73e073d073c073b073a0739073807370736073507340754073207310730072f072e072d072c072b072a072907280727072607250724074c072207210720071f,
  0x75e075d075c06b206b00722075807570756075507530722075207510750074f074e074d074b0722074a074907480747074607450744075a074207410740073f,
  0x6aa077d077c077b077a0779077707650767076507740772076a076b076a076f076e076c076307710773076907680776077806b0076406ab078d07610760075f,
  0x79e079d079c079a0799079707980796079507930794078c079207910790078f078e09bb06aa06c806c5078806aa07870786078507840783078207810780076d,
  0x7b607b707bc07bb07f807fc07b807a507b407b507b307b007b106bf09f205a607ae07ad07ac07ab07aa07a906c006bf07a6079b09dc07a307a207a107a0079f,
  0x7de07dd07dc07c907da07d907d807d707d607d507d407d307d207d107d0080707cb07cd07cc07ba07ff07c509dd07c707c607c407c307be07c207c006c507bd,
  0x7b907fd07fb07b907fa08f308d507b907f607f507f407f307f207f107f007ee07ec07ed07eb07e807e507e907e7080007e607e407e307e107e207cf07e007df,
  0x81e084d081c081b081a082d08330817081608f508140813081208430810080f080e08230829080b07f908d90808080607cd0805080408030802080107fe07b9,
  0x83e083d085b085008390836083808f9086c08fe08340832081808310853082f082e08190818082b08270828080c080a0826084908240822080c080d0820081f,
  0x85e0861085c0859082a08560858088c085508540840083a0818082a084f083b084e084c08180870084a0848080c083c083b084508440842080c087b083f0837,
  0x87e087d087c087a082a090108780877087608750874087308720871086f083b086e086d086a082a086708690868085a08e608650864086308810860083b085f,
  0x89e089d089c089b089a0899089808960893089508940892089008910905088b088e088d088a082a08ba08890888088608da0884086b088308820880083b087f,
  0x8be08e008bc08bb08a8088508b708ab08b608b008c908b308b208b108c308e308ae08ad090608aa08a708a9088708c008e708a508a408a308a208a108a0089f,
  0x8de091d08d008db08d8088507ef08d7091808d407ef08d308d108c508f8092108cb08cd08cc08ca08c708e908af08c6090708c408fc08b508af08c108bf0885,
  0x8f207ef08fb08b808fa08f707ef08b8094108f407ef08dd07ef092708f008ef08ee091c08ec08d208b808e808af08e507ef07ef08e4093d08af08e108df0885,
  0x91e091b08cf08b8091a0919091708b80916091409df07ea09120911090f08cf09470903090c090b090a09220908090407ef07ef07ef090008ff08b807ef0902,
  0x93e093c08cf093a09e009f309380934093609350933093109320930092f092d092e0926092c092b094409550928091508cf092509240923092008b808cf07bf,
  0x95d095a099b095b0959095709580956095409530929094d0952095109950997094e093b094c094a094809490946093f08cf0945092a09290942094008cf0937,
  0x97e095f097c097b097a0979097809750976097309740972096a09710970095009e2096d096c096b09680969096709660965094b09f50963096209610960095e,
  0x99e099d099c099a094f0999099809a1094f0992094f09930991098e09ba098f098d098b098c098a09b30987098809810986098509be09bf0982096f0980097f,
  0x983098309bc09b903d4098f09b809b7099409b509b409b2098809b109b009af09ae09ad09ac09ab09aa09a909a809a709a609cd09a409a309a209c7094f099f,
  0x3d4097703d403d403d409d703d403d409d503d409cc09c503d403d403d403d403d403d4099f09f409c909c509c809c6099f09d409c409c309c209c109c00984,
  0x9fe111809fc09fb802609f909f809f70a1009f103f409c503f403f409f009ee03f409ed09ec09eb09ea09e909e809e709e403f403f409de03f403d403f403d4,
  0xa1e0ac40a1c1bb71bb90ad10a180a17125e12600a140a1380450a110a0f09d70a0e0a0d0a0c0a0b0a0a0a090a080a070a060a050a040a030a020ad90ae609ff,
  0xa320a3d0a3c0a3a0a2e0a390a380a370a360ae90aec0a330a1a0ad30aa80a2f0a010aef0a2c0a2b0a2a0a290a280a270a260a250a240a230a220a210a200a1f,
  0xa5e0a5a0a5c0a5b0a350a590a580aeb0a560a550a540a530a520a510a500a4f0a4e0a4d0a4c0a4b0a4a0a490a480a470a460a450a440aea0a420a410a400a3e,
  0xa7e0a7d0a7c0a7b0a310a300a780a770a760a750a740a730a710a5a0a5d0afb0a6e0a6d0a6c0a6b0a6a0a690a680a720a660a650a640a630a620a6009600a5f,
  0xa9e0a9d0a9c0a9b0a9a0a950a3f0a970a960a700a940a930a920a910a900a8f0a8e0a8d0a8c0a8b0a8a0a890a880a870a860a850a840a830a820a810a800a7f,
  0xabe0abd0abc0abb0aba0ab90ab80ab70ab60ab50ab40ab30ab20ab10ab00aaf0aae0aad0aac0aab0aaa0aa90aa70a300aa60aa50aa40aa30aa20aa10aa00a9f,
  0xade0add0adc0adb0ada0a3b0a000ad70ad60ad50ad40ad20a190ad00a190ace0a990acf0acc0acb0aca0ac90ac80ac70ac60ac50a990a190a340ac10ac00abf,
  0xafe0afd0afc0b190a340b1b0af80af70b770b7b0af30af20a1612610af00aee0a000aed0ae80a340a340a340a340ae70ae50a000ae40ae30ae20ae10ae00adf,
  0xb1e0b1d0b1c0b1a0af90afa0af90b170b160b150b140b130b120b110b100b0f0b0e0b0d0b0c0b0b0b0a0b090b620b660b050b04045e111b0b020b010b000aff,
  0xb3e0b3d0b3c0b3a0b370b390b380af60b7f0b350b340b330b320b310b300b2f0b2e0b2d0b2c0b2b0b290b260b280b270b080b6a0b240b230b220b210b200b1f,
  0xb5e0b5c0b590b5b0b5a0b580b550b570b560b3b0b8b0b530b520b510b4f0b4c0b4e0b4d0b4b0b480b4a0b490b2a0b700b460b450b440b430b420b410b400b3f,
  0xaf50b7d0b7c0b7a0af50b790b780b5d0af50b750b740b730b720b710b6f0b070b6e0b6d0b6c0b6b0b690b070b680b670b650b070b640b630b500b070b600b5f,
  0xb9e0b9d0b9a0b9b0b990af412620b970b960b950b940b930b920b910b900b8d0b8e0b8c0b06111c0af50b890b880b870b860b850b840b830bba0b810b800b7e,
  0xbbe0bb80bbc0bbb0bb90b81111d0bed0bf70bb50bb40bb30bb20bb10bb00baf0bae0bad0bac0bab0be60ba90ba80ba60bef12630ba40ba30ba20ba10ba00b9f,
  0xbde0bdd0bdc0bdb0bd90bd10bd80bd70bd60bd50bd40bd30bd20ba70bf00bcf0bce0bcd0bcc0bcb0bca0bc90bc80bc70bc60bc50bc40bc30bc20bc10bc00bbf,
  0xbfe0bfd0bfc0bfb0bfa0bf90bf80bf60b8f0bf50bf40bf30bf20bf10bee0b9c0b9c0bb70b8f0beb0bea0be90be80be70bda0b9c0be40be30be20be10be00bdf,
  0xc1e0c1d0c1c0c1b0c1a0c190c180c170c150beb0c140c130c120c110c100c0f0c0e0c0d0c0c0c160c0a0c090c080c070c060c050c040c030c020c010c000bff,
  0xc3e0c3c0c2f12660c3a0c390c380c370c360c350c26111f0b320c310c300c2b0c6f0c710c2c0c2a0baa12650c280c270c220c250c240c230c210bbd10ff0c1f,
  0xc5e0c5d0c5c0c8d0c5a0c590c580c570c560c550c540c530c4e0c510c500c4f0c4d0c4b0c340c4a0c2e0c750c480c470c460c450c420b430c410c3d0c400c3f,
  0xc7e0c7d0d970c7b0c790d790c780c770c760c740c2d12690c430c700c2d0c4c0c2d0c6d0c5211200c6a0c690c680c670c660c650c640c630c620c610c600c5f,
  0xc9e0c9d0c9c0c9b0c9a0c990c980cd50cd80c950c940c930c920c910c900cb10c8e0c8b0c5a0c8a0c860c890c880c870c850c840c6c0c830c820c810caa0c7f,
  0xcbe0cbd0cbc0cbb0cba0cb90cb80cb70cb60cb50cb40cb20bb20cb00c7f0caf0cae0cc00cc60cab0ca90c7f0ca80ca70ca60ca50ca40ca30ca10c7a0ca00c9f,
  0xcde0cdd0cdc0cdb0cda0d3b0d3d0c960cd60c970c960cd30cd20cd10cd00ccf0cce0ccd0ccc0ccb0cca0cc90cc80cc70cc50cac0cc40cc30cc20cc10cad0cac,
  0xcfe0cfd0cfc0cf90cfa0cf80ce80d2c0cf60cf50cf40cf30cf20cf10cf00cef0cee0ced0cec0ceb0cea0ce70be80ce60cd90d3e0ce40ce30ce20ce10ce00cdf,
  0xd1e0d1d0d1c0d1b0d1a0d190d180d170d5a0d630d140d130d120d110d100d0f0d0e0d0d0d0c0d0b0d0a0c8c11230d070d060d050d040d030d020d010d000cff,
  0xd3c0cd70cd70d390cd70d310d380d370d360d350d340d330d320d160d660d2f0d2e0d280cd70cd70cfb0e190d270d2d0d260d250d240d220d210d090d200d1f,
  0xd5e0d5d0d5c0d5b0d550d150d580d570d560d540d520d530d510d490d500d4f0d4e0d4d0d4c0d4b0d4a0d3a0d6a0d470d460d450d440d430d420d410d400d3f,
  0xd7e0d7d0d7c0d7b0d7a0d780c730d770d760d9a0d740d730d720d990d700ca20c730d6d0d6c0d6b0d690d150d680d670d650d150d640d620d150d610d600d5f,
  0xd9e0d9d0d9c0d9b0d980c730c730da70c730d950d940d930d920d910d900d8f0d8e0d8d0d8c0d8b0da10d890d880d870d860d850d840d830d820d810d800d7f,
  0xdbe0dbd0dbc0dbb0dba0db90db80db70db60db50db40db30db20db10db00daf0dae0dad0e0911260daa0da90da80da60c730da50da40da30da20da00c730d9f,
  0xdde0ddd0ddc0ddb0dda0dd90dd80dd70dd60dd50dd40dd30dd20dd10dcf0dcd0dce0dcb0dcc0dca0dc60dc90fc10fc30dc50dc40dac0dc30dc20dc10dc00dbf,
  0xdfe0dfd0dfc0dfb0dfa0df90df80df70df60df50df40df30df20df10df00def0dee0ded0dec0deb0dea0de90de80de70de60de50de40de30de20de10de00ddf,
  0xe1e0e1d0e1c0e1b0e1a0e180d290e170e160e150e140e130e120e110e100e0f0e0e0e0d0e0c0e0b0e0a0d2a0d290e070e060e050e040e030e020e010e000dff,
  0xe3e0e3d0e3c0e3b0e3a0e390e380e370e360e350e340e330e320e310e300e2f0e2e0e2d0e2c0e2b0e2a0e290e280e270e260e520e5f0e230e220e210e200e1f,
  0xe240e5d0e5c0e5b0e5a0e590e580e570e560e550e540e530e250e240e500e4f0e4e0e4d0e4c0e4b0e4a0e490e480e470e460e450e440e430e420e410e400e3f,
  0xe7e0e7d0e7c0e7b0e7a0e790e780eb10e760e750e740e730e710e6f0e700e6d0e6e0e6c0e680f830f840e690e670c7c126c0e650e640e630e620e610e600e5e,
  0xe9d0eb50e840e9b0e990e970e980e960e940e950e920e930e910e8d105a10680e8e0e8c0e72126f0e8a0e890e880e870e860e850dd011060e820e810e800e7f,
  0xebe0ebd0ebc0ebb0eba0eb90ec50ec80eb60e6b0e8a0eb30f850eb00e760eaf0eae0ee30eac0eaa0fb50ea90ec60fef0ea60ea30ea40ea20e9e0ea10ea00e9f,
  0xede0edd0edc0edb0eec0ef70ed80ed70ed60ed50ed40ed30efb0ed10ed00ecf0ece0ecd0ecc0ecb0ef50ec90ec70eb70eb80e9b0eb70ec30ec20ec10ef90ebf,
  0xeb40efd0efc0f870ec90ef80ebf0ef60ed90ef40ec90ef30ef20ef10ef00eef0eee0eed0eda0ed90eea0ee90ee80ee70ee60ee50ee40ee20eac0ee10ee00edf,
  0xf1e0f1d0f1c0f1b0f1a0f190f180f170f160f490f4b0f120f110dc80fc50f0f0f0e0f0d0f0c0f0b0f0a0f090f080f070f060f050f2d0f030f020f010f3c0f3e,
  0xf3d0eff0f000eff0f3a0f390f380f370f360f350f340f330f320f300f2f0f150f560f2c0f030f2b0f2a0f290f280f270f260f250f240f230f220f210f200f1f,
  0xf5e0f5d0f5c0f5b0f5a0f590f580f570f550f140f540f530f520f510f500f4f0f4e0f4d0f4c0f4a0f140f310f140f470f460f450f440f430f420f410f400f3f,
  0xf990f7c0fa50f7a0f130fca0f780f770f760f750f740f730f720f710f700f6f0f6e0f6d0f6c0f6b0f6a0f690f680f670f660f650f640f630f620f610f600f5f,
  0xf9e0f9d0f9c0f9b0f9a0f7d0f7b0f970f960f950f940f930f910f860f900f8f0f8e0f8d0f8c0fc20f8a0f890f880fb60e6a0fb80e6a0e6a0e6a0f810f800f7f,
  0xfbe0fbd0fbc0fbb0fba0ea80fb20fc90f920efe0ea50fb30eab11290fb00faf0fae0fad0fac0fab0faa0fa90fa80fa70fa60fa40f7b0fa30fa20fa10fa00f9f,
  0xfde0fdd0fdc0fdb0fda0fd80fd60fd70fd50fd30fd40fd10fd20fd00fcc0fcf0fce0fcd0fcb0fc80fb90dc70efe0fc70fc60fc40dc70f7e0dc70efe0dc70fbf,
  0xffe0ffd0ffc0ffb0ffa0ff90ff80ff70ff60ff50ff40ff30ff20ff10ff00fee0f920fed0fec0feb0fea0fe90fe80fe70fe60fe50fe40fe30fe20fe10fe00fdf,
  0x101e101d101c101b101a1019101810171016101510141013101210111010100f100e100d100c100b100a10091008100710061005100410031002100110000fff,
  0x103e103d103c103b103a1039103810371036103510341033103210311030102f102e102d102c102b102a1029102810271026102510241023102210211020101f,
  0x105e105d105c105b0e900e8f105210571056105510540fd91050112c104f104d104e104c104a104b104810491047104310871099104410420e9a12701040103f,
  0x10531271107c1157107a10781076107710751073107410711226111e106c106f106e106d106b106a1059106910670e8f1066112a10641063106210611060105f,
  0x109e109d109c10c5109a10981045108b108a10951094109310bc1091108e108f108c108d1097108910a5108810861046104510851083107f108210811080107e,
  0x127410bd10c9109110cf10b910b70fc910b610b40ea510b310b210b110b010af10ae10ad10ac10ab10aa121a121b10a710a61272108a10a310a210a110a01090,
  0x10de10dd10dc10db10da10d910e110e410d610a910d4122210d210d110d010cd10ba10cc10ca10cb10bb10c710ba10c010c610c4109a1251125710c110bf10be,
  0x45d10fd10fc10fb112f10f910f810f710f610f510f410f310f110eb10f010ef10ee10ed10ec10d5107d115810e810e710e610e510e310d710e210d810d710df,
  0x45d1070045d045d045d045d1117045d10721070111411131112111010ea110f110e110d110b11d6110a1109110711011105045d11041103110210f211001228,
  0x113e113d113c113b11461139113811371136113511341133113211311111107910f9112d112b045d1128045d045d11271125045d11241122045d11211119045d,
  0x122c115d115c115b116811561079107910791155115411531152115111501164114e114d114c114b114a1149114811471145113111441143115911411140113f,
  0x117e11a911ba117b117a117911781177110c11dc11741173117211a31170116f116e116c116b116a116711691166107911601165116310791162116111cb115f,
  0x119e119d119c119b11991185119811861185119511941193119211911190118f118e118d118c118b118a1189118811871197119a11841183118211801176117f,
  0x11be11bd11bc11b9117c117c11b811b711b611b511bb11b311b211b111b011af11ae11ad11ac11ab11aa117d117c11a711a611a511a411a2117011a111a0119f,
  0x11de11dd11db110811da11d911d811d711e0110811d411d311d211d111d011cf11ce11cd11cc1181110811c911c811c711c611c511c411c311c211c111c011bf,
  0x11fe11fd11fc11fb11fa11f911f811f711f611f51205120b11f211f111f011ef11ee11ed11ec11eb11ea11e911e811e711e611e511e411e311e211e111df1108,
  0x121e121d121c116d10a810a8121812171216121512141213121212111210120f120e120d120c120a11f3120912081207120611f411f3120312021201120011ff,
  0x123c123d123a123b12391235123812371236123410d31276123212311230122f122e122b10a810a8122a1229122710a8122510a81224122d122110a81220121f,
  0x124a0a15125c125b125a12591258125610c2125512541253125210c310c2124f124e124d124c124b124912481244124712461245124212431241123f1240123e,
  0x127e127d127c127b127520921278127780270a1512730a1512df0a150a150a150a1512ea0a1d0a15126a12680a15126712640a150a15125f0a150a150a150a15,
  0x129e129d129c129b129612991298129720901295129412931292129112cb12d0128e128d1b941b74128a1289804612871286128512841283128212811280127f,
  0x128c1b9512bc12bb12ba12b912b812b7126e12eb12b412b312b212b112b012af12ae12ad12ac12ab12a912a512a812a712a6129012d612a312a212a112a0129f,
  0x126d12be12dc12db12da12d912d812d5128f128f12d412d712d111d112cf128f12ce12cd12cc12aa128f12c912c812c712c612c512c412c312c212c012b612bf,
  0x12fe12fd12fc12fb12fa12f912f812f712f612f512f412f31307130812de1b9612ee12ed12ec1318126d126d12e812e712e612e512e412e312e212e112e012c1,
  0x131e131d131c133e13561316131712dc1b9a0a1b131413131312130f131012f0130e130d130c130b130a130912f212f112f113051304130313021301130012ff,
  0x131b131a133c133b133a1339133813371336133513341333133213311330132f132e132d13111b98132a1329132813271326132513241323132213211320131f,
  0x135e135d135c135b135a1359135813571369131a13741353135213b213c0134b13c713cc134c132c134a1b97134813191bbb134413111343134213451340133f,
  0x137e137c1348137b137a137913781376135113751373135413721371137d136f136e136d136c136b136a1355135413671365136413631347136213611360135f,
  0x134f139d139c139b139a1399139813971396139513941393139213911390138f138e138d13771350138a1389138813871386138513841383138213811380137f,
  0x13b613bd13bc13bb13ba13b913b813b713b513b113b413b3134e135013cd13af13ae13ad13ac13ab13aa13a81bbc13e013a613a513a413a3136613a01b99139f,
  0x13de13c51b7b13db13da13d913d813d713d613d513d413d313d213d113d013cf13ce13cb134d134d13c913c813bf13c6134d13a913c413f213fb13c113a11350,
  0x13fe13fd13fa1b9c13c213f913f813f713f613dd13f413f313c313c213f013ef13ee13ca1bbf13eb13ea13e913e813e713e613e513e413e313e213e113df13a6,
  0x141e1546154a1403141a1418141214191416141514141413141214111410140d15031508140b140a140913ed140814071406140514041b9b13fc1401140013ff,
  0x143e143d143c143b143a1439143814371436143514341433143214311430142f142e142d142c142b142a1429142814c214cc1425140f1ba01421141b1420141f,
  0x145e145d145c145b145a1459145814571456145514541453145214511450144e13c7144d14a914ac144a1448144614471444144514431442144114401424143f,
  0x147e147d147c147b147a147914781477147614751474147314721471146a14691469146d146c146b146f1470146814671466146414621463144c14af1460145f,
  0x149e149d149c149b149914971498149614941495146514bc149214911490148f148e148d148c148b148a1489148814871486148514841483148214811480147f,
  0x14231b9d14bb144b14ba14b914b814b714b614b514b414b314b214b114b014ae144b14ad14ab144b14aa149a144b14a714a614a514a414a314a214a114a0149f,
  0x14de14c514dc14db14da14d914d814d714d614d514d414f514d214d114d014cf14ce14cd14cb142614ca14c914c814c714c614c414be14c31427142614c014bf,
  0x141d154c14fc14fb14fa14f914c014f714f614f414c014f314f214f114f014ef14ee14ed14ec14eb14ea14e914e8151f14e414e514e314dd14e214e114e014df,
  0x14e4151d151c151b151a1519151815171516151515141513151215111510150f150e150d150c150b150a15091507140c150615051504140e140c14fe150014ff,
  0x153e153d153c153b153a1539153815361535153415311533153215021558152f152e152d152c152b152a1529152815271526152515241523152215211520151e,
  0x155e155d155c155a141c15591557141c15561583155415531552155b1550154f154e154d154b141c1549141c154815471537141c15441543154215411540153f,
  0x157e157d157c157b157a1579157815771576157515741573157215711570156f156e156d156c156b156a1569156815671566156515641597156215611560155f,
  0x159e159c1596159b159a1b9f159814e615621ba21593158e159215911590158f14491bc5158c158b158a15881554158715861585158415821554158115801589,
  0x15be15bd15bb15b515ba15b915b818d518d9159d15b415a215b015b115ae15af18a315ac18a715aa159415a915a815a715a615a515a415a315c015c315a0159f,
  0x15dd15da15dc15b71bc918dd15d815d715d615d515b315d315d115cb15d015cf15ce15cd15cc15c11ba515c915c815c715c615c515c415c215a115bc15bf15a1,
  0x15fb15f515fc1b0915f71b1a15f615e118de15f4162c15f315f215f0166915ef15ee15ed1ab61ab715d215de15e5162b15e615ad18a815e315e215e015db15df,
  0x161e161d161c161a15f116191618161716161615163d1613161216111610160f160e160d1661160b160a16091608160716051600160416031602160115e815fd,
  0x163e163c1613163b163a16391638161b15ea163516341633163216311630162f162e162d162a15e715e7162916281627162616251624162315fe15e71620161f,
  0x165e165d165c165b166f1659165816571656165516541653165216511650164f164e164d164c164b166c1649164816471646164516441643164216411640163f,
  0x167e167d167b1678167a167915ff18e01676167516741673167216711670166e15ea166d166b15ea166a166815ea166716661665166416631662165f15ea155f,
  0x169e169d169c169b169a1699169816971696169516941693169216911690168f168e168d168c168b168a16891688168716861685168416831682167f1680167c,
  0x16be16bd16bc16bb16ba1876187716b716b616b516b416b316b216b116b016af16ac16ad16a916ab16aa15e918aa16a716a616a516a416a316a216a116a0169f,
  0x16de16dd16dc16db16da16d916d816d716d616d516d416d316d216d116d016cf16ce16cd16cc16cb16ca16c916c816c716c616c516c416c316c216c116c016bf,
  0x1703170616fc16fb16fa16f916f816b916f6187f16f416f316f216f116f016ef16ee16ed16ec16eb16ea16e916e816e716e616e516e416e316e216e116e016df,
  0x171e171d171c171b171a1719171817171716171517141713171217111710170f170e170d170c170b170a170917081707170516fd170416fe16fd1701170016ff,
  0x173e173d173c173b173a173917381737173617351734173317321731176e177f172e172d172c172b172a1728172117271726172517241779178316f717201885,
  0x175e175d175c175b175a1759175817571755174517541753175217511750174f174e174d174c174b174a1749174817471746173017811743174217411740173f,
  0x172f177d177c177b177a1723172217771776177517741773177217711770176f1756172f176c176b176a1769176817671766176517641763176217611760175f,
  0x179e179d179c179b179a1799179817ac17bd179517941793179217911790178f178e178d178c178b178a1789178817d517db17851784178217221780172f177e,
  0x17be17bc179617bb17ba17b917b817b717b617b517b417b317b217b117b017af17ae17ad1797179617aa17a917a817a717a617a517a417a317a217a117a0179f,
  0x17de17dd17dc17da178617d917d817d717d61787178617d317d217d117d017cf17ce17cd17cc17cb17ca17c917c817c717c617c517c417c317c217c117c017bf,
  0x17fe188817fc17fb17fa17f917f817f717f617f517f417f317f217f117f017ef17ee17ed17ec17eb17ea17e917e817e717e617e517e417e317e217e117e017df,
  0x181e181d181c181b181a18191818181718161815181418131827183a1810180f180e180c1807180b180a18091808180617ff1805180418031802180118001729,
  0x183e183d183b1834183918111851185418361835180d1833188918311830182f182e182d182c182b182a1829182818121811182518241823182218211820181f,
  0x185e185d185c185b185a1859185818571856185518531837185218381837184f184e184d184c184b184a18491848184718461844184218431841183c1840183f,
  0x16b8187d187c187b187a18791878184516b816b818741873187218711870186f186e186d186c186b186a1869186818671866186518641863186218611860185f,
  0x189e189d189c189b189a1899189818971896189518941893189218911890188f188e188d188c188b188a188716b816b81886188416b81883188218811880187e,
  0x18f918bd18bc18bb18ba18b918b818b718b618b518b418b318b218b118b018af18ae18ad18ac1a831a8415ab18a615ab15ab18a518a416ae15ab18a118a0189f,
  0x18dc15b615b618db195a195d15b618d718d6168115b618d318d218d118d018cf18ce18cd18cc18ca18ab18c918c818c718c618c518c418c318c218c118c01aa3,
  0x190c18fd18fc18fb18fa18f818be18f718f618f518f418f318bf18be18f018ef18ee18ed18ec18eb18ea18e918e818e718e618e518e418e318e218e118df15b6,
  0x191e18cb191c1a8e191a1919191819171916191519141913191219111910190f190e190d190b18be190a190919081907190619051904190319021901190018ff,
  0x193e193d193b191d193a19391938193719361935193419321930193118da1961192e192d192c192b192a1929192819271926192519241923192219211920191f,
  0x195e195c18d8195b193318d8195819571956195519541953195219511950194f194e194d194c194b194a1949194819471946194519441943194219411940193f,
  0x197e197d197c197b197a1979197819771987198d19741973197219711970196f196e196d196c196b196a19691968196719661965196419631962196018d8195f,
  0x199e193c199c1a94199a1999199819971996199519941993199219911990198f198e198c1975198b198a1989198819761975198519841983198219811980197f,
  0x19be19bd19bb19a719ba19b919b819b719b619b519b419b319b219b119b019af19ae19ad19ac19fe1a0019a919a819a6199d19a519a419a319a219a119a0199f,
  0x19de19dd19dc19da19d919ab1a0219d719d619d519d419d319d219d119d019cf19ce19cd19cc19cb19ca19c919c819c719c619c519c419c319c219c119c019bf,
  0x19db19aa19fc19fb19fa19f919f819f719f619f519f419f319f219f119f019ef19ee19ed19ec19eb19ea19e919e819e719e619e519e419e319e219e119e019df,
  0x1a1e1a1c1a151a1b1a1a1a191a181a171a1d1a151a141a131a121a111a101a0f1a0e1a0d1a0c1a0b1a0a1a091a081a071a061a051a041a031a0119aa19ff19aa,
  0x1a3e1a3d1a3c1a3b1a3a1a391a381a5d1a5f1a341a2f1a331a321a311a301a2e1a251a2d1a2c1a2b1a2a1a291a281a271a2619bc1a241a961a221a211a201a1f,
  0x1a361a371a361a5b1a5a1a591a581a571a561a551a541a531a521a511a501a4f1a4e1a4d1a4c1a4b1a4a1a491a481a471a461a451a431a351a421a411a401a3f,
  0x1a7e1a7d1a7b1a741a7a1a791a781a771a761a7c1a741a731a721a711a701a6f1a6e1a6d1a6c1a6b1a6a1a691a681a671a661a651a641a631a621a611a601a5e,
  0x1a9e1a9d1a9c1a9b1a9a1a991a981a971a9518a91a9318a91a921a901a8a1a8f1a8d18a91a8c1a911a8a1a891a881a871a861a851a4418a918a91a811a801a7f,
  0x1abe1abd1abc1abb1ad11ad41ab815ec15eb15eb1ab41ab31ab21ab11ab01aaf1aae1aad1aab1aa51aaa1aa91aa81aa71aa615f91ba61aa218a91aa11aa01a9f,
  0x1ade1add1adc1adb1ada1ad91ad81ad71ad51ad31ad21ab91ba91aba1ab91ace1acb1acd1acc1af21ac41af91ac81ac71b261b321aac1ac31ac21ac11ac01abf,
  0x1afd1afc1aef1afb1afa1af61ac91b371af01ac61af41af31aca1ac91aee1ba71ae61aed1aec1aeb1aea1ae91ae81ae71ae51ae01ad61ae31ae21ae116061bb0,
  0x1b1d1b1b1b1c1b161b1915f81b181b171b151b0e1b141b131b121b391b471af71b0b1b0d1b0c1b0a1b051b0815f81b071b0615fa1b021af81b001b011aff1afe,
  0x1b3e1b3c1b361b3b1b3a1b111b101b221ac51baa1b341b331b311ac51b301b2f1b2e1b2d1b2c1b2b1b2a1b291b281b271b041ac51b241b231b201b211b1e1b1f,
  0x1b5e1b5d1b5b1b551b5a1b591b581b571b561b3d1b541b531b521b511b501b4f1b4e1b4d1b4c1b4b1b661b6d1b481b461b101ba81b441b431b421b6c1b401b3f,
  0x1bad1b7d1b0f1b7a128b1b791b781b771b761b751b6a128b1b721b711b701b6f1b6e1b6b1b491b401b651b691b681b671b641b491b631b611b621b601b5f1b4a,
  0x128b1b93128b128b128b09fd128b128b128b128b128b128b1b921b901b811b8f1b8e1b8d1b8c1b821b811b891b881b871b861b851b841b831b8b1b911b801b7f,
  0x9fd1bbd129a09fd09fd1bb809fd1bb609fd1bb51bb41bb31bb21bb11baf09fd1bae1bac128b1bab1ba4128b09fd128b128b128b128b1ba31ba1128b1b9e09fd,
  0x1bde1bdd1bf21c021bda1bd92068206a1bd61bd580471bd31bd21bd11bd01bcf1bce1bcd1bcc1bcb1bca1bc809fd1bc71bc61bbe09fd237723791bc11bc08048,
  0x1bfe1bfd1bfc1bfb1bfa1bf91bf81bf71bf61bf51bf41bf31bdc1bdb1bf01bef1bee1bed1bec1beb1bea1be91be81be71be61be51bdf1be31be21be11be01bc4,
  0x1c1e1c1d1c471c4f1c191c181bd8204b1c161c151c141c131c121c111c101c0f1c0e1c0d1c0c1c0b1c0a1c091c081c581c601c041c03127a20931bdb1c001bff,
  0x1c3d1c361c3c1c3b1c3a1c391c381c371c071c701c2d1c331c321c311c301c2f1c2e1c1c1c551c2b1c2a1c291c281c271c261c251c241c231c221c211c201c1f,
  0x1c1b1c5d1c5b1c331c5f1c591c3e1c061c561c541c1b1c531c521c511c501c4e1c1b1c4d1c4c1c4b1c4a1c491c481c351c1b1c451c441c431c5c1c411c401c3f,
  0x1c621c7d1c7c1c7b1c7a1c791c781c771c761c731c741c721c0520951c6f1c061c6e1c6d1c6c1c6b1c6a1c691c681c671c661c651c641c631c1a206b1c5e1c06,
  0x1c9e1c9d1c9c1c9b1c9a1c991c98206d1c961c951c94206c1c921c911c901c8e1c631c8d1c8c1c8b1c8a1c81206e1c871c861c851c841c831c821c801c7f1c8f,
  0x1cbc1cbd1cbb1cb2209b20731cb81cb71cb61cc91cb41cb31cb11cb01cae1caf1cad1c751cab1ca71caa20961d1f1ca61ca51c891ca41ca31ca21ca11ca01c9f,
  0x1cde1cd81cdc1cdb1cc11d5e1cd71cd61cba1cd51cd41cd31cd21cd01bd01ccf1d1e1ccd1ccc1ccb1cca1cc81c9a1cc71cc61cc51cc41cc31cc21cbf1cc01cbe,
  0x1cfe1cfb1d851d941cdd1cf91cf72074209c1cf51cf41cf31cf21cf11cf01cef1ced1bed1cec1ceb1cea1d121ce81ce01ca81ce51ce41ce31ce21ce11cdf1ca9,
  0x1ca81ca81d1c1d161d1a1d191e031e121d151d141cf81d131d111ce81d101d0f1cda1d611d0c1d0b1d0a1d091d081d071d061d051d041d031d011cfd1d001cff,
  0x1c3d1d3d1d3c1d3b1d3a1d391d381d601d361d351d341d681d321d311d0e1cd91d2e1d2d1d2c1d2b1d2a1d291d281d271d261d251d241d231d221d211d1d1d1b,
  0x1d5d1cd91d5c1d5b1d5a1d591d581d2020751d551d541d531d501d511d4c1d4f1d4e1d4d1d4a1d4b1d491d471d481d461d02207d1d441d421c5c1d411d401d3e,
  0x1d7a1d7d1d7c1d7b1d751d791d781e1c1e281d741d731d571d711d631d701df71dfa1d6d1d6c1d6b1d6a1d691d671cd91d661d651d641d181e151d5f1cd91d36,
  0x1d9e1d9d1d9c1d9b1d9a1d991d981d971d961d951d931cfa1d921d911dc21dc51d8e1d8d1d8c1d8b1d8a1d891d881d871d861cfc1cfa1d831d821d811d7e1d77,
  0x1d6e1dbd1dbc1dbb1dba1db91db81db71db61db51db41db31db21db11db01daf1dae1dad1dac1dab1daa1da91da81da61d6f1da51da41da31da21da11da01d9f,
  0x1dde1ddd1ddc1ddb1dda1dd91dd81dd71dd61dd51dd41dd31dd21dd11dd01dcf1dce1dcd1dcc1dca1cca1dc91dc81dc71dc61dc41d8f1dc31d901d8f1dc01da7,
  0x1dfe1dfd1dfc1dfb1df91d6e1df81df61d6e1df51df41df31df21df11df01def1dee1ded1dec1deb1dea1de91de81de71de61de51de41de21ce21de11de01ddf,
  0x1e1e1d8020771d761d52209f1e181e131e0c1e0c1d171e081e0d1d171e101e0f1e0e1e161e171e0b1e091e081e0a1e071e061e051e041d721d171e011e001dff,
  0x1e3e1e731e7e1e3a1e391e1d1e381e331e361e351e341e311e321e301e2e1e2f1e2d1e2c1e1a1e2b1e2a1e291e571d761e601e251e24209e1e221e211e201e1f,
  0x1e491e5d1e5c1e5b1e5a1e591e581e271e261e551e541e531e521e511e501e4f1e4e1e4d1e4c1e4b1e5f1e681e441e471e461e451e401e4320761e411e371e3f,
  0x1e7d1e3c1e7c1e7b1e7a1e791e781e771e761e751e741e3d1e3c1e711e701e6f1e6e1e6d1e6c1e6b1ea21e4820781e491e661e651e641e631e621e611e4a1e26,
  0x1e9e1e9d1e9c1e9b1e9a1e991e981e971e961e8f1e941e931e921ec81ece20a01e3b1e8d1e871e8b1e8a1f981fa81e861e841e691e3c1e831e821e811e801e85,
  0x1e8d20791ebc1ebb1eba1ec91eb81eb71eb61eb51eb41eb31eb01eb11f651ead1f6d1ea91eac1eab1eaa1ebf1ea81ea61ea41ea51ea31ea11e901e481ea01e9f,
  0x1fd51fb81edb1faa1ebe1e891ed81ed71ed61ed51ed41ed31ed21ed11ed01ecf1ecd1e8c1ecc1ecb1eca1e911e8d1e8c1ec61ec51ec41ec31ec21ec11ec01e95,
  0x1efe1efd1efc1efb1efa1ef91ef81ef71ef51ee21ef41ee31ee21ef11ef01eef1eee1eed1ee51edc1eea1ee91ee81ee71ee61ee11ee41ef31ef61eda1ee01edf,
  0x1f1e1f1d1f1c1f1b1f1a1f191f181f171f161f141f021f131f121f111f031f021f0e1f0d1f0c1f0b1f0a1f091f081f071f061f051f041f101f151f011f001eff,
  0x1f3a1f261f3b1f381f2b1f391fde1f351fe41f341f331f211f321f311f301f2f1f2e1f2d1f2c1f2a1fab1f861f8a1eec1f571f251f241f231f221eb220a21f1f,
  0x1f5e1f5d1f5b1f581f5a1f591f291f8e1f261f551f541f531f521f511f501f4f1f4e1f4d1f4c1f4b1f4a1f491f481f471f461f451f411f431f421f401f271f3f,
  0x1f7e1f7d1f7c1f7b1f7a1f791f781f771f761f751f741f731f721f711f701f6f1f6e1f6c1eae1f6b1f6a1f691f681f671f661eaf1eae1f631f621f611f601f5f,
  0x1f9e1f9d1f9c1f9b1f9a1f991f3d1e881f951f8c1f941f931f921f911f901f8f1f961f281f8c1f8b1f891f281f881f871f5c1f281f841f831f821f811f801f7f,
  0x1fbe1fbd1fbc1fbb1fba1fb91fb71edd1fb61fb51ede1fb31fb21eeb207a1faf1fae1fad1fac1fa91e881e881fa71e881fa61fa51fa41fa31fa21fa11fa01f9f,
  0x1fdd1f361f371fdb1fda1fd91fd81fd71fd4207b1edd1fd31fd21fd11fd01fc41fce200c20a31fcb1fca1fc91fc81fc71fc61fc5200620071fc21fb11f441fbf,
  0x1ffe1ff920a71ffb1ffa1ff41ff81ff720831ff51ff31ff11ff220041fed200b1fee1fd61fcf1feb1fe61fe91fe81fe71fe11fe51fe31f361fe21fe01fdf1fcd,
  0x201e201c201a201b20162019201820172014201520132011209a20a1200f2003200e200d20a41fc31fef20092005207f1fc31fc31ff01fef1ffd200120001fff,
  0x203e203d203c203b203a2042203820372036203520282033203220312030202b2047202d202c207c202a2029204c2052202520212008202320222020201d201f,
  0x205e20c820d2205b205a2059202720572056205520542024205120272050204f204e204d203920271bd7204920482046202e204520442043202f202e2040203f,
  0x1bd7207212791bd71bd71bd71bd71bd71bd71bd71bd71bd71bd720712070206f20691bd71bd71bd71bd71bd720671bd72066206520642063206220612060205f,
  0x12791279209912791279201020982097209412791279201212791279208f1279208e208d208c208b208a2089208820872086208520842082127920812080207e,
  0x20be20bd20bc20bb20ba20b920b820b720b620b520b420b320b220b120b020af20ae20ad20ac20ab20aa20a920a820a6127920a5209d12791279127920101279,
  0x20de20dd20dc20db20da20d920d820d720d620d520d420d320d1205c20d020cf20ce20cd20cc20cb20ca20c9205d205c20c620c520c420c320c220c120c020bf,
  0x1ffe20fd20fc20fb20fa20f920f820f720f620ef236a236d20f220f18028200b20ee20ed1be420eb20ea20e920e820e720e620e520e420e320e220e120e020df,
  0x211e211d211c211b211920192118211721102115211421132112211120f5210f210e210d210c210b210a210921082107210621052104210321022101210020fe,
  0x213d203d213c213b213a2138213721362135212e237c2133213221312130212f212d212c1bc3237b21162129276f27702126212580492123212221212120211f,
  0x215e215d215c215b215a21592158215721542155215321892151218c237f214f214e214d214c214b214421492148214723c823d2212a2143214221412140213f,
  0x217e217d217c217b217a217921782177217521682174216a216821712170216f216e216d216c216b21732176216621672152219221642163216221612160215f,
  0x2376219d219c219b219a219921982196219421952190219321912139218f218e2380218d21562139218a21692139218721862185218421822180218120f42370,
  0x21be21bd21bc21bb21ba21b921b821b721b621b521b421e021e321b121b021af21ae21ad21ac21ab21aa21a921a821a721a621a421a221a321a1219f21a02183,
  0x21de21dd21dc21db21da21d921d821d721d621d521d421d321d221d121d021cf21ce21cd21cc21cb21ca21c921c821c721c621c521c421c321c221c121c021bf,
  0x21fe21fd21fc21fb21fa21f921f821f721f621f521f421f321f221f121f021ef21ee21ed21ec21eb21ea21e921e821e721e621e521e421e221b221e121b321b2,
  0x221d21972382221b221a2219221822172216221522142213221222112210220f220e220d220c220b220a220922082207220622052204220322022201220021ff,
  0x223e223d223c22222221223822372235223622332234223122322230222f222e22262384222c222b222a22292228222722242225223b222322202246221f221e,
  0x225c225d228d225b2258228f225722562255223923852253225222512250224f224d2221224c224b224a22492248224e2245222122442243224222412240223f,
  0x227e2263227c227a2279227822ac2277227422752272227322712270226f22622386226c2267226b226a2269226822662264226522a7226122a92260237a225e,
  0x22912290229c229b229a22992298229722962295229422932292229e22a8228e2259225a2259228b228a2289228822872286228522842283228222812280227f,
  0x22be22bd22bc22bb22ba22b922b822b722b622b522b422b322b222b122b022af22ae22ad22ab21a522aa22a621a5229021a5227b22a422a322a222dc22a0229f,
  0x22de22dd22db22a022da22d922d822d422d62355236522d222d122cf22d0235d22ce22cb236b22ca22c922c8227d238822c622c522c422c322c222c122c022bf,
  0x22fe22fd22f222fb230c22f922f822f622f5230a22f422f322f1230b22ef22ed22ee22eb22ec234c22ea22e8234d22e622d7238922e422e322e222e122e022df,
  0x231723182317231b231a2319231d231f231622e92314234e23122311230f22f0231022f022f022f022f022f02302230723062305230e230322fc23012300230d,
  0x233e2352233c233b233a23392324234923362335235023252332232c23252325232e232d2326232b233423292328232723302331231523232322234f2320231e,
  0x235e22cd22cc235b235a235923582357235622d522d32353235122e7234222e722e722e722e722e7234a2348233723382337234523442343234723412340233f,
  0x1bc2237d214a1bc21bc220f31bc222f71bc220f32374237323722371236f20f3236e236c20f3226d22cc20f3236823672366236422d32363236223612360235f,
  0x239e238f239c239b2a362a1623982397802a2395239423932392239123902387238e26902691238b238a80291bc21bc223831bc21bc21bc223811bc2237e1bc2,
  0x23be23b523bc23bb23ba23b923b8280e281f23ac23b423b323b223b123b023af23ae23ad214623d523aa23a923a823a723a623a523a423a323a223a123a0239f,
  0x23de23dd23dc23db23da23d923d823d723d623d3214523aa23d1214523d023cf23ce23cd238d23cb269223c923b6214523c623c523c423e823c223c123c023d4,
  0x243323fd23fc2693230c23cc23f823f723f5230a23f423f323f223f123f023ef23ee23ed23ec23eb23ea23e923e723be23e623e5212823e3277123e123e023df,
  0x241e241d2772241b241a24192418241724162415241324102412241123ff2443240e240d240c240b240a2409240824072406240524042403240224012400242f,
  0x243e243d243c243b23fe243924382437269524352434242123fa24202430241423fa242d242c242b242a242924282426233024252424242324222432244223e4,
  0x245e245d245c2488245a24592458247a2456245524542773277424512450244f244e244d244c244b244a241f24482447244627532444244123fa24202440243f,
  0x247e247d247c247b2479244824782477247624752474246e247224712470246f2453246d246c246b246a24692468249b2466246524642499246224612460248d,
  0x24d2249d249c249a246224982462249724962495249424932492249124ae248e2456248c2456248b248a248924872456248624ad248424832482248f2480247f,
  0x277824bd24bb277524b524b924b824b726962484243a24b324b224b124b024af24ac2484248424ab24d424a924a824a724b624a524a424a324d324a124a0249f,
  0x24de24dd24dc24db24bf24d924d824d724d624d524d124a924a1249d24d024cf277724cd24cc24cb24f624c924c624c724c524bc24c424c324c2267924c02473,
  0x24f924f824fc24fb24fa2524250824f724f524c9277a24f324f224e3277d24ef24ee24ed24ec24eb24c8269e24e824e724e624e524e424e224e124da24e024df,
  0x251e251d251c25522536251825172516251425152513277c251225112510250f250e250d24f1250b250a2509252d24f825062504250025032502250124ea24ff,
  0x253e2573253c253b253a255625382537251b251925342533253225312530252f252e252c24f8252b252a25292528252725262525255824f8252225212520251f,
  0x255e255c2781255b2780255925572522255525192554250726a125192550254f254e254d254c254b254a2549254825472546256425442543254225772540253f,
  0x257e257d257c2656265c2579255d257625402575257026a2253c2571256e256f256d2569256c256b256a2553256825672566256525632519256225612560255f,
  0x259e259d259b2599263d263e2591259725962595259425932592258f2590258e2589258d258c258b2574258725882585257b25842583258225802581257f2578,
  0x25be25bd25bc25bb25ba25b925b825b725b625b525b425b325b225b125b025c025ae25ad25ac25ab25aa25a925a825a725a625a525a425a325a225a125a0259f,
  0x25de25dd25dc25db25da25d925d825d725d625d525d425d325d225d125d025cf25ce25cd25cc25cb25ca25c925c825c725c625c525c425c3259a25c1263f25ae,
  0x25fe25fd25fc25fb25fa25f925f825f725f625f525f425f325f225f125f025ef25ee25ed25ec25eb25ea25e925c225e725e6264425e425e325e225e125e025df,
  0x261e261d261c261a2616261926182617260a26152614264c261226112610260f260e260d260c260b2609260526082607260625e826042603264b2601260025ff,
  0x259825982598263b263a2639263826372636263526342633263226312630262f262e262d262c262b262a26292628262726262625262426232621261b2620261f,
  0x265d265a265b257a2688265926582657258a257a26542653259c26832650264f264e264d264a2598259826492648264726462645264325982642264126402622,
  0x267d2672267c267b267a2673238c26722676267526742678267e2671267026e626f4266d2660266b266a266926a3266726662652266426632662268f265f2782,
  0x269d238c269c269b269a26ef26942697266f238c238c268e238c238c238c238c265a268d268c268a278426892687265a2686268526842682238c26e72680267f,
  0x26a0266e26bc26bb26b726b926b826b526b626b326b426b226b126b026ae26af26ad26a626ac26ab26aa2765276e26a7268b26a526a4269f238c238c238c2698,
  0x26de26dd26dc26db26da26d926d826d726ee26f026d426d32734273726d026cf26f526cd26cc26cb26ca26c926c826c726c626c526c426c326c226c126c026bf,
  0x26fe26fd26fb26f926fa26d2273826f726f626f3266e266e26f226f126ed26d5266e26d526d626eb26ea26e926e826e5266e266e26e426e326e226e126e026df,
  0x270d271d271c271b271a2719271827172716271527142713271227112710270f271f2724270c270b270827092706270726fc273f2704270327022701270026ff,
  0x26d1273d273c273b273a2739273626d126d12735270a26d1273227312730272f272e272d272c272b272a272927282727272627252723270d272227212720270e,
  0x275e275d275c275b275a27592758275727562755275426ba212726832750274f274e274d274c274b274a274927482747274526d127462743274227412740273e,
  0x277e277b2127212727792127277621272127276d212721272127212721272127212726a823bd276b276a276927682767276626a926a8276327622761275f2782,
  0x279e279d279c279b279a27992798279727962795279427da27dd279127902a782a58278d2783278b278a27892e6a2e6c27862785802b2127804a212721272127,
  0x27be27bd27bc27bb27ba27b727b827b527b627b027e327b327b227b127af27ad27ae27a427de27ab27aa27a927a827a727a627a5278c279327a227a127a0279f,
  0x27dc2792279227f82806279227d827d727d627d527d427d327d227d127d027cf27ce27cd27cc27cb27ca27c927c827c7239a2a3827c427c327c227c127c027bf,
  0x27fe27fd27fc282327fa27f927db27b927f627f527f427f327f227f127f027ef27ee27ed278f2a7927ea27e927e827e727e527c627e427e2279227e127e027df,
  0x239d27e62a3b281b281a2819281828172816281528142813280c2a7c2810280f23b7239d280b27ec280a280928372807280527b92804280328022801280027ff,
  0x283d283c281d283b283a28392838283627fa283528312881283228122830282f282e2a7a282c282b282a282928282827282628252824282227fa28212820281e,
  0x285e285d285c285b285a28592858285728562855288e2853285228512850284f284e284d284c284b284a2849284828472846284528762a7d284228412840283e,
  0x287e287d287c287b287a287928782877286c283328742873287228712870286f286e286d286b2861286a2869286728662863286528642844286228342887285f,
  0x289e289d289c289b289a28992898289728962895289428922a4428862890288f286828532a82288b288a28892888283f28332a3e28842883288228802833287f,
  0x28be28bd28bc28ba299528b928b7299728b628b428b328b0289328b128af28ac28ae28ad288d28ab28aa28a928a828a728a628a528a428a328a228a128a0289f,
  0x28c928c828dc28db28da28d928d828d728d628d528d428d328d228d128d028cf28ce28cd28cc28cb28ca28de28f028b22a8628c528c428c328c228c128c028bf,
  0x28fe28fd28fc28fb28fa28f12a8a28f728f628f528f428f328f228ef28ec28c828ee28ed28ea28eb297928e6298528e728c728e528e428e328e228e128e028df,
  0x294e291d2a0429182a0d291928f9291729162915290f2988291229112910290e2903290d290c290b290a29092908290729062905290428e929872901290028ff,
  0x293e293d293c293b293a2939293829372936293529342933293229312930292f292e292d292c292b292a2929292829262923292529242921291e292029482914,
  0x295e295d295c295b295a2959295829572956295529542953295229512950294f294d291c294c294b294a2949291f291c2946294529442943294229412940293f,
  0x298a297d297c297b297a292228e829772976297529742973297228bb2a48296f296e296d296c296b296a2969296829672966296529642963296229612960295f,
  0x2999299d299c299b299a299829ec28b828b529fd28b52992299129902971298f298e298d298c298b298928e8298628e828e8298428e82983298229812980297f,
  0x29be29bd29bc29bb29ba29b929b829b729b629b529b429b329b229b129b029af29ae29ad29ac29ab29aa29a929a829a729a629a529a429a329a229a129a0299e,
  0x29dd29d529dc29db29da29d929d829d729d6291b2a152a9029d229d129d0292729ce29cd29cc29cb29ca299f2a4a29c729c629c529c429c329c229c129c029bf,
  0x29fc29f9299329fa29f729f329f82a6429f12a7229f429d429f229f029ee29ef29ed29eb29ea299329e929e829c929e729e6299629e429e329e229e129e029df,
  0x2a1e2a1d2a1c2a402a412a192a182a1729fb2399291a2a132a122a112a102a0f2a0e2a0c291a2a0b2a0a2a092a082a072a052a0229de291a2a0129fe2a0029ff,
  0x2a3d23992a3c2a3a23992a392a3723992a3523992a342a332a322a312a302a2f2a2e2a2d2a2c2a2b2a2a2a292a282a272a262a252a242a232a222a212a202a1f,
  0x2a5e2a5d2a5c2a5b2a5a2a592a06278e2a562a552a542a532a522a512a502a4f2a4e2a4d2a4c2a4b2a4923992a4723992a462a452a4323992a422a1b2a1a2a1a,
  0x2a7e2a7b278e278e2a77278e278e278e2a762a7527ac2a732a7129f52a702a6f2a6e2a6d2a6c2a6b2a6a2a692a682a672a662a6529f629f52a622a612a602a5f,
  0x2a9e2a9d2a9c2a9b2a9a2a8f2eca2eda2a962a952f4e2f512a922a91802c278e2a8e2a8d2a8c2a8b2a89278e2a882e7f2e81278e2a842a83804b278e2a802a7f,
  0x2abe2abd2abc2abb2aba2ad22ab82ab72ab62ab52ab42ab32ab22ab12a992ae22aad2aac27882e6d2aaa2aa82aa72a872e832aa52aa42aa32aa22aa12aa02a9f,
  0x2adc2add2adb2aae2e4e2ad82aaa2ad72ad62ae92ad42ad32ab02aaf2ad02acf2ace2acd2acc2acb2aca2ac92ac82ac72ac62ad92ac42ac32ac22ac12ac02abf,
  0x2afe2afd2afc2afb2afa2af92af72af62af52af42aa92e842af22af12af02aef2aee2aed2aec2aeb2ade2e6f2aaa2ae72ae62ae52ae42ae32ae12aaf2ae02adf,
  0x2af82b1d2b1c2b1b2b092e532b182b172b142b152b132b1f2b112b2b2e852b0f2b0e2b0d2b0b2af52b0a2b072b082b062b052aea2b042b032b022b012b0c2aff,
  0x2b3d2b162e872b3b2b392b372b382b362b352b1a2b342b332b322b312b302b2f2b2e2b2d2b2c2b2a2af82b292b282b272b262b252b242b232e702b212b202b12,
  0x2b5e2b5d2b5c2b5b2b672b582b6c2b572b562b542b532b522b432e882b502b4f2b4e2b4d2b4c2b4b2b4a2b492b482b472b462b452b442b402bb12bb72b3f2b3e,
  0x2b7d2a7b2b7c2b7b2b7a2b792b782b772b762b742b702b732b722b712bb62b422b6e2b6d2b6b2b552b6a2b692b682b592b552b652b642b632b622b612b602b5f,
  0x2c292c372b9b2b9a2b992b5a2e8b2b972b962b952b942b932b912b8d2b902b8f2b8e2b3c2e772b8b2b8a2b892b882b872b862b852b842b752b412b812b802b7f,
  0x2bbe2bbd2bbc2be12be52bb92bb82c672b412b412cf02c762bb22bb02b412e762bae2bac2baa2d312d332ba82b922ba72ba62ba52ba42ba02aa22ba12b9f2b9c,
  0x2bde2bdd2c102c172bd72bb42bd82bc52c322bd52bd42bd22bd02bd12bca2bcf2bcd2acd2bcc2cc12bc92bc82bc72bc62e8c2c212c252bc32bc12ac12bc02bbf,
  0x2bdc2c1b2bfc2bfb2bfa2bf92bf82bf72bf62bf52bf42bf32bf22bf12bf02bef2bee2bed2bec2beb2bea2be92be82be72be62be42bba2be32be22bbb2bba2bdf,
  0x2c1e2c1d2c1c2c1a2bd92c192c182c162bd92c152c142c132c122c112c052bd92c0e2c0c2b0b2c0b2c0a2c092c082c072c062c042bfe2c032c022c012c002bff,
  0x2c3e2c3d2c3c2c3b2c3a2c392c362b9d2b9d2c352c332b332c312ba22c382c2f2c2e2c2d2c2c2c2b2c2a2b9e2b9d2c272c262c242ba22c232c222bdb2ba22c1f,
  0x2c5c2c5d2c5b2c582dbb2dbf2c572bd32c552cd22e8d2c532c522c512c502c4f2c4d2b4d2c4c2c4b2c4a2c492c482c472c462c452c442c432c422bda2bb32c3f,
  0x2c7d2c562c7c2c7b2c7a2c792c782cb02c752bb32c742c732c722c712c702c6f2c6e2c6d2c6c2c6b2cc42c692c682c662bb32c652c642c632c602c612c5e2c5f,
  0x2c9e2c9d2c9b2c972c9a2c982bcb2d372e582c952c942c932c922c912c902c8f2c8e2c8d2c8c2c8b2c892d402c882c872c862ccd2c842c832c822c802c7e2c7f,
  0x2cb92cbd2cbc2cbb2cba2cb72cb82cb62cb12cb52cb32cb22c9c2c8a2caf2c752cae2cad2cac2cab2caa2cdc2ce72ca72ca62d392ca42ca32ca22ca12ca02c9f,
  0x2cde2cdd2ca92ca82cda2cd92cd82cd72cd62cd52cd42cd32cd12bcb2cd02ccf2cce2ccc2bcb2ccb2cca2ced2cf82cc72bb52baf2cc32bcb2cc22cbe2bcb2cbf,
  0x2cfe2cfd2cfc2cfb2cfa2cf92cf72cc82cf62cf52cf42cf32cf22cf12cef2baf2cee2cc92cc82ceb2cea2ce92ce82ce62ca82ce52ce42ce32ce22ce12ce02cdf,
  0x2d1e2d1d2d1c2d1b2d1a2d192d182d172d162d152d142d132d122d112d102cb42c812d0d2d0c2d0b2d0a2d092d082d072d062d052d042d032d022d012d002cff,
  0x2d3e2d3d2d3c2d3b2d3a2d382c812d362c812d352d342d322ba92bab2ba92d2f2d2e2d2d2d2c2d2b2d2a2d292d282d272d262d252d242d232d222d212d442d1f,
  0x2d5e2d5d2d5c2d5b2d5a2d592d582d572d562d552d542d532d522d662d772d4f2d4e2d4d2d4c2d4b2d4a2d492d482d472d462d452d432c812d422d412d3f2c81,
  0x2c622d7d2d7c2cc02e7c2d792d782d762d502d752d742d732d722d712d702d6f2d6e2d6d2d6c2d6b2d6a2d692d682d672d512d502d642d632d622d612d602d5f,
  0x2d9e2d9b2d9c2d9a2d982d992d972d962d852d952d942d932d922dc42dcd2d8f2d8e2d8b2d8c2d892d8a2d882e782d872d862d842d802d822d812e8e2d7f2d7b,
  0x2c592dbd2daa2db32c592db92db82db72db62db52db42d912dd12db12db02daf2dae2dad2dac2dab2da92da62da82da72c5a2dc82da42da32d9d2da12da02d9f,
  0x2ddd2dda2ddc2ddb2dd92dd82dd72d902e8f2dd52dd42dd32dd22dd02d8d2dcf2dce2dcc2d8d2c592dca2dc92dc72c592dc62dc52dbc2d8d2dc22dc12dc02dbe,
  0x2dec2da52e7d2dfb2dfa2df92df32df72df62df52df42df12df22def2df02dee2deb2dff2e052dea2de92de82de62e912de22de52de42de32de02de12dde2ddf,
  0x2e1e2e1c2e1a2e1b2e192e182e162e172e552e142e362e132e122e112e102e0d2e0e2e0b2e0c2e0a2e032e072e592e062e022e042dec2e922e012dfd2e002ded,
  0x2e3d2e092e932e3b2e3a2e392e672e372e352e0f2e342e6e2e322e312e302e642e2e2e2d2e152e0f2e082e292e282e242e262e252e1f2e232e222e212e202e1d,
  0x2e7e2e5d2e5c2e5b2e5a2e572e0827872e562e542e0f2e5227872e512e482e4f2e4d27872e4c2e4b2e4a2e492e462e472e442e452e432e402e972e992e3f2e3e,
  0x2a852787278727872e7a2e502e752787278727872e742e732e722e712e6b278727872e32278727872e6927872e682e662e0f2e652e632e0f2e802e822e602e5f,
  0x2e9e2e9d2e9c2e9b2e9a2e982e412e422e412e952e942e902a852a852a852e8a2a852a852a852a852a852e892e862a852a852e622a852a852a852e612a852e61,
  0x2ebe2ebd2ebc2ebb2eba2eb92eb82eb72eb62eb52eb42ece2ede2eb12eb02f5f2f622ead2eac804c2eaa2ab92ea82ea72ea62ea52ea4306330652ea12ea0802d,
  0x2edc2eb22eaf2f6b2ed92a972ed82ed72ed62ed42ed22ed32a942f5a2ed02ecf2eb32eb22ecc2ecb2a982a972ec82ec72ec62ec52ec42ec32ec22ec12ec02ea9,
  0x2efe2efd2efc2efb2ef82ef72df32ed52f5e2ef52ef42ef32ef22ef12ef02eef2eee2eed2eec2eeb2eea2ee92ee82ee72f692edf2ee42ee32ee22ee12ee02edd,
  0x2f3d2f152f712f1b2f1a2f192f182f172f162f142f122f2c2f2e2f602f3f2f0e2f082f0d2f0c2f0b2f0a2f092f072f052f062ee62f6f2f022efa2f012f002eff,
  0x2f0f2f112f0f2f3b2f3a2f392f382f372f362f352f342f332f322f312f302f2f2f2b2f032f292f032f132f282f272f262f202f252f242f232f212f1e2f1f2f1d,
  0x2eae2a932f2d2f5b2f592a932f582f572f562f552f542f532f522f502a932f4f2f222a932f4c2f4b2f4a2f492f482f472f462f452f442f432f422f412f402f3e,
  0x2f7e2f7d804e2f7b2f7a2f792f782f772f762f752f74305230542f702eae2f6e2eae804d2f6c2f6a2eae2f682eae2f672f662f652f642f632f612eae2f5d2a93,
  0x2f9e2f9d2f872e9b2f9a2f992fcb2fdf2f952f942ea330682f922f912f8f2e8a2fc92f8d2f8c2f8b2f8a2f892f882f7c2f862f8531a331b42f822f813e5e3e7e,
  0x2fbe2fbd2fbc2fbb2fba2fcf2fe32fb62fb52f7330572fb32fb22fb12fb02faf2fae2fad2fac2fab2faa2fa92fa82f9b2fa6802e2fa42fa32fa22fa12fa02f9f,
  0x2f972fdc2fb730582fda2fd92fd72fd52fd62fd42fd32f96304a2fd12fd02fb92fb82fcd2fcc2f982f972fc82f8d2fc72fc62fc52fc42fc32fc22fc12fc02fbf,
  0x2ffe2ffd2fd8304c2ffa2ff92ff82ff72ff62ff52ff42ff32ff22ff12ff02fef2fee2feb2fec2fe92fea2fe82fe72fe130592fe52fe42fe22fb82fe02fde2fdd,
  0x301e301d301c301b301a30193018301730153014301330752ffc30113010300f300e300a300c300b30083009300730062fed305b300430033002300130002fff,
  0x303d30293064303a303230393038303730363035303430333031302f3030302e302d30713016302b302a302830273024302630253022302330213020300d3060,
  0x3dde3de02fa7305a2f7230562f722f722f72305530532f72304b2f723050304f304e304d30492ea230462ea2303b304730453044304130433042303f3040303e,
  0x307e3f2d3f36307b307a4116411830773076804f2ea23073307230702ea2306f306e306d306c306b306a306930672ea23142314c2ea22f722ea23061305f2f72,
  0x3096309d3ec73ed6309a307d309830973eb93f3a30943093309230913090308f308e308d308c308b308a31a231a430872f803e5f30843083308230743080307f,
  0x30be30bd30bc30bb30ba30b930b830b730b630b530b430b330b230b130b030af30ae30ad30ac30ab30aa30a830a7308931a6308630a430a330a2309530a0309e,
  0x30de30dd30dc30da30d130d930d830d730d630d530d430d330d23066314d30cf30ce30cd30cc30cb30ca30c930c830c730c630c530c330c230c130c030a931ac,
  0x31af30fd30f330fb30fa30ec30f830f730f630f530f430db314f30f130f030ef30ee30ed30eb30e630ea30e930e830e730e530e430e330e230c431ad30e030df,
  0x311d311c311a311b311531193118311731143151311331123111310a31b0310f310e310d310c310b310830fe3103310731313105310431023101312930ff30fc,
  0x313e313c313b313a3139311e31b1313731363135313431333132313030fc312f312e312d312c312b312a312830fc312731263125312431223121311f31203116,
  0x315e315d315a314b315931ba315731cb31b3315531543153315231503062314e30622f843062306231b63149314831453146314431233143313d30623140313f,
  0x3158317d31c4317b317a3179317831773176317531c03173317231713170316f316e316d31be316b316a31693168316731633165316431623160315c31de318a,
  0x319e319d319c319b319a31cc31983197319631953194318d314731913190318f318e318c3189318b3188315e318531c83186318431833182317f31813180317e,
  0x31bd314731bc31bb31b931473161315b31b52f8331b22f83308831ae30883088308831ab3088308831aa31a931a831a731a53088316630882f83308831a0319f,
  0x31dd315b31dc31db31da31d931d831d731d631d530a631d33e8031d131d031cf320631cd31ca3147314731c931e2314731c631c531c3314731c231c131bf3147,
  0x31fe31fd31fc31fb31fa31f931e831e731e731f531f2329031d431f131f031ef31ee31ed31ec31eb31ea31e931f731f831e631e53e7f31e331e1315b31e031df,
  0x321e321d321c320932073219321832163210321732143213321232113210320f320e320d320c320b320a321b322531e7320531cd3204320832023201320031ff,
  0x323d313c323b322a323a3294329832363235305e3de2323332323231323c322f322e322d322b321d322a3229322832273226322432073223322c32213220321f,
  0x323932ac325c325b325a3259325832573256325532543253325232513250324f324e328c324c3e81324a3249324832473246324532443243324232413240323f,
  0x327e327d327c327b327a327932783277328332723288327331f432a03270326f326b32e732f5324d326a32693268326732663265326432633261325e3260325f,
  0x329e326e329c3e62329a32993297323832a432953262323832923291328f31f3328e328d327631f3328a3289328732743286328532843275327432813280327f,
  0x32be3e82372e329d32e332b532f732b732b632b432a732ea32b232b132b032af32ae32ad32ab323832aa32a932a8326d32f632a532a331f332a232a1329f31f3,
  0x32de32dd32dc32db32da32d932d832d732d632d532d432d332bb32ba32d032cf32ce32cd32cc32cb32ca32c932c632c732b932c532c432c332c232c132c032d2,
  0x32fe32fd32fb32fa32f932f837af3de3326c326c326c37bc323732ef373132bf32ee3e8332ec32eb32e932b232e832c8326c32e532e432e232ba32e132e032df,
  0x331e331d331c331b331a3319331833173316331533143313330d33113310330f38c238c5330c330b330a3309330833073338333c3304330336dd36fd330032ff,
  0x333e333d333b3305333a3339330633053336333533343333333233313330332f332e332d332c332b332a3329332833273326332533243323332233213320331f,
  0x335e32f13732335b335a3359335833573356335533543353335233513350334f334e334d334c334b334a330236df33813346334533443343334233413340333f,
  0x337e337d337c337b33483347337833773376337533743373337233713370336f336e336d336c336b336a3368334933673366336535f93600336233613360335f,
  0x339e339d339c339b339a3399339833973396339533943393339233903347338f338e338d338c338b338a33893387335d3391338533843383338233803347337f,
  0x33be33bd33bc33bb33ba33b933b833b733b633b533b433b333b1337833b233af33ae33ad33ac33ab33aa33a933a833a733a633a533a433a333a233a133a0339f,
  0x33c436e233dc33db33da33d933d833d733d633d533d433d333d233d133d033cf33ce33cd33cc33cb33ca33c933c833c733c633c533c333c2336936e033c033bf,
  0x33fd33e133fc33fb33fa33f933f833f733f633f533f433f333f233f133f033ef33ee33ed33ec33eb33ea33e933e833e73414341633e433e333e233df33e033de,
  0x341e341d34413443341a341934183417341533e533e633e5341234113410340f340e340d340c340b340a340934083407340634053404340334023401340033ff,
  0x343e343d343c343b343a3439343834373436343534343433343234313430342f342e342d342c342b342a3429342834273426342534243423342234213420341f,
  0x345e345d345c345b345a3460345834573456345534543453345234513450344f344e344d344c344b344a3449344834473446344534443442341b341c341b343f,
  0x347e347d347c336436043479347834773476347534743473347234713470346f346e346d346b346a34683469346733fe36ee34653464346334623461345f3458,
  0x349e349d349c349b349a3499349834973496349534943493349234913490348f348e348d348c348b348a348934883486346c3485348434833481347b3480347f,
  0x34be34bc34b934bb34ba34b834b234b734b634b534b434b33482360a34b034af34ae34ad34ac34ab34aa34a9349734a734a634a534a434a334a234a134a0349f,
  0x34dc34dd34db348736f034d934d834d734d634d534d434d334d234d134d034cf34ce34cd34cc34cb34ca34c934c834c734c634c534c434c334c234c134c034bf,
  0x34fe34fd34fc34fa34ec34f934f834f734f634f534f434f334f234f134f034ef35a535ba34eb362234ea34e934e834e734e634e534e434e334e234e134df362f,
  0x351e351d351c351b351a3519351835173516351535143513351235113510350f350e350d350b34fb350a350935083507350635053504370e35023501350034ff,
  0x353d3538353c353b353a353935373534353635353533352d353235313530352f352e34bd360c352b352a3529352835273526352535243523352235213520351f,
  0x355e355d355c355b3541358e355835573556358d35543553355235513550354f354e354d354c354b354a35493548354735463545354435433542357c3583353f,
  0x357e357d357b354035613579357835773576357535743573357235713570356f356e356d356c356b356a356935683567356635653564356335623560355a355f,
  0x359e359d359c359b359a3599359835973596359535943593359235913590358f358c35403554358b358a3589358835873586358535843582354035813580357f,
  0x350c36f135bc35bb35b934ed35b835b735b635b535b435b335b235b135b035af35ae35ad35ac35ab35aa35a935a835a735a634ee34ed35a335a235a135a0359f,
  0x35e135d135dc35db35da35d935d835d735d635d535d435d335d235d035cf35ce35c335cd35cb35c535ca35c935c835c735cc35c535c435c235c135bf35c035be,
  0x35fe35fd35fc35fb35fa353e336335f735f635f535f435f335f235f135f035ee36c735ed35ec35eb35ea35e935e835e735e635e535e435e335e235e035c535df,
  0x361e361d361c361b361a3619361836173616361536143613361236113610360f360e360d360b3363360933633608360736063605360333633602360135ff3363,
  0x36533656363c363b363a3639363836373636363536343633363236313630362e34de362d362c362b362a362936283627362636253624362334e034de3620361f,
  0x365e365d365c365b365a3659365836573655363d36543652363d36513650364f364e364d3645363d364a36493648364736463644363e3643364236413640363f,
  0x367e367d367c367b367a3679367836773676367336743672367136663670366f366e366d366c366b366a3669366836673665366436623663366136b736f2365f,
  0x369e369d369c369b369a369936983697369636953694369335ef368136c9368f368e368d368c368b368a3689368836873686368536843683368236803675367f,
  0x36be36bd36bc36bb36ba36b936b836a135de36b536b436b336b236b136b036af36ae36ad36ac36ab36aa36a936a836a736a636a536a436a336a236a03691369f,
  0x33013692330136db36da36d936d836d736d536ce36d436d336d236d136d036d636ce36cd36cc36cb36ca36c835de36c635de36c536c436c336c236c136c036bf,
  0x36fe36fc330136fb36f936ef36f836f736f636f536f436fa36ef33013301330136ed330136ec36eb36ea36e936e836e736e636e536e436e336e1330136de3301,
  0x371e371d371c371b371a3719371837173716371537143713371237443710370f370d33013742370b370a3709373c3707338832f03704370332bd32bc370036ff,
  0x373d32f0373b32f0373a3739373837373736373537523733373032f032f0372f372d32bc372c372b372a3751372837273726373e37243723372237213720371f,
  0x384b375d375c3761375a3759375837573756375437283753377a37283728374f374e374d3755374b374a3749377f3747374637453777370b3741370b3740373f,
  0x3747377b377c375f384c374f377837763741377537743773377237713770376f376e376d376c376b376a37693768376737663765376437633762376037283848,
  0x37913790379c379b379a37993798379737963795379437933792379e37a8378f378e378b378c3789378a377e384e37873786378537843783378237813780377d,
  0x37be37bd37bb32f337ba37b937b837b7387e387f37b437b337b237b137b032f432f337ad37ac37ab37aa37a937a7379037a637a537a437a337a237a137a0379f,
  0x37de37dd37dc37db37da37d937d837d737d637d537d437d337d237d137d037cf37ce37cd37cc37cb37ca37c937c837c737c637c537c437c337c237c137c037bf,
  0x37fe37fd37fc37fb37fa37f937f837f737f637f537f437f337f237f137f037ef37ee37ed37ec37eb37ea37b637e8388037e637e537e437e337e237e137e037df,
  0x381e381d381c381b381a381938183817381638153814381338123811381037e9380e380d3885380b380a380938083807380638053804380338023801380037ff,
  0x383d3839383c383b383a380f38383837388c38353834383338323831382f382e382c382d382a382b378d385a382838273826382538243823382238213820381f,
  0x385e385d385c38593856375e38583857383e38553854388d385238513850384f384d375e384a375e375e38493830375e3846384538443843384238413840383f,
  0x37b537b5387c387b387a3879387838773876387538743873387238713870386f386e386d386c386b386a38693868386738663865386438633861385b3860385f,
  0x389e389d389c389b389a38993898389638943895331238933e8438913890388f388e388b37b537b5388a3889388838873886388437b5388338823881386237b5,
  0x38bc38bd38bb38ba38b932fc3dc738b73e6538b538b438b338d238b138b038af38ae38ad38ac38ab38aa38a938a838a738a638a438a238a3330e38cb38a0389f,
  0x38de38dd38dc38db38f838f938d838d73e8538d538d438d338d1389738d038cf38ce38cc38ca38c932f238c738b8389738c63e8732f238c338a532f238c038bf,
  0x38fe38fd38fc38fb38fa38da38d938d938f638f538f4392338e138f138f038ef38f338e538ec38eb38ea38e938e838e738e638cd38e438e338e238e138e038df,
  0x391d391c391b3905391a3996399d391739163e8939b0397a3911390f39103de9390e3e8a390c390b390a390939083907390638be3dea390339023901390038ff,
  0x3919393d393c393b393a3938393739363935392d39343933393239313930392f392e39aa392c3998392a392939283926392139253924392238f1391f3920391e,
  0x395e395d395c395b395a39593958395739563955395439533952395139143913394e394d394c394b394a394939483947394639453944394339423940393f393e,
  0x39a9397d397c397b397939133978397739763975397439733972397139413918396e396d396c396b396a3969396839673966396539643963396239613960395f,
  0x399e399c39183939399a3999399739183995391839943993399239913990398f398e398d398c39273dec3989398839873986398539843983398239813980397f,
  0x39e439bd39bc39bb39ba39b939b839b739b639b539b439b339b139ec39a8391239ac39ad39a739ab3e8b3912391839a53c703c72391539a239a1398b39a0399f,
  0x39dd39db39dc39d739da3e8c39d839d539d639d239d339d139ca3a0939d039cf39ce39cd39cc39cb3a0839c939c839c739c639c539c439c339c239c139c039bf,
  0x39fe3a193a1d39fb39fa3cca39f83a2d39f639f539f43a2939f239f139f03a0c39ee39ed39b239af39ea39e939e839e739e639e539e339bd39e239e03ccb39df,
  0x3a1c3a1b39fc39fd3a1839af39fc3a173e8d3a153a143a133a123a113a103a0f3a0e3a0d3a0b39af3a0a3a1a39d139af3a063a053a033a023a0139f93a0039ff,
  0x3a363d173a3c3a3b3a3a3a393a383a373a1e3a3539ae3df03a323a313a303a2f3a2e3a2c39f63a2b3a2a3a2839f23a2739e13a253cd73a233a223a213a203a1f,
  0x3a5e3ac43ad53a5b3a5a3a583a573a553a563a503a543a533a523a513a4e3da43da93a4c3a4b3a4a3a343a493a483a473b813ba13a443a433a423a403a3f3a3e,
  0x3a7e3a7d3a7c3a7b3a7a3a793a783a773a763a753a743a733a463b873a703a6f3a6e3a6d3a6c3a6b3a6a3a693a683a673a663a653a643a633a623a613a603a5f,
  0x3baa3bab3a9c3a9b3a9a3a993a263a973cd83a953a943a933a913a723a903a8f3a8e3a8d3a8c3a8b3a8a3a893a883a873a863a853a843a833a823aed3afe3a7f,
  0x3abe3abd3abc3abb3aba3ab93ab83ab73ab63ab53ab43ab33ab23ab13ab03b163b273aad3aac3aab3aaa3aa93aa83aa73aa63aa53aa33a983aa23aa13aa03a9f,
  0x3ade3add3adc3adb3ada3ad93ad83ad73ad63ad43a5c3ad33ad23ad13ad03acf3ace3acd3acc3acb3aca3ac93ac83ac73ac63ac53a5d3a5c3ac23ac13ac03abf,
  0x3afd3a803afc3afb3afa3af93af83af73af63af53af43af33af23af13af03aef3aee3a813a803aeb3aea3ae93ae83ae73ae63ae53ae43ae33ae23ae13ae03adf,
  0x3b1e3b1d3b1c3b1b3b1a3b193b183b173aaf3aae3b143b133b123b113b103b0f3b0e3b0d3b0c3b0b3b0a3b093b083b073b063b053b043b033b023b013b003aff,
  0x3bb03b3d3b3c3b3b3b3a3b393b383b373b363b353b343b333b323b313b303b2f3b2e3b2d3b2c3b2b3b2a3b293b283b263aae3b253b243b233b223b213b203b1f,
  0x3b5d3b583b5c3b5b3b5a3b593a923ba73b563b553b543b533b523b513b503b4f3b4e3b4d3b4c3b4b3b4a3b493b483b473b463b453b443b433b423b413a9e3b3f,
  0x3b7e3b7d3b7c3b7b3b7a3b793b773b5e3b763b753b743b733b723b713b703b6f3b6e3b6d3b6c3b6b3b6a3b693b683b673b663b653b643b633b623b613b603b5f,
  0x3b9e3b9d3b9c3b9b3b9a3b993b983b973b963b953b943b933b923b913b903b8f3b8e3b8d3b8c3b8b3b8a3b893b883b863a413b853b843b833b823b783a413b7f,
  0x3bbe3bbd3bbc3bbb3bba3bb93bb83bb73bb63bb53bb43bb33bb23bb13baf3a9d3bae3bad3bac3b403a9d3a9d3ba83ba63a413ba53ba43ba33ba23ba03a413b9f,
  0x3bde3bdd3bdc3bdb3bda3bd93bd83bd73bd63bd53aa43bd33cd93bd13bd03bcf3bce3bcd3bcc3bcb3bca3bc93bc83bc73bc63bc53bc43bc33bc23bc13bc03bbf,
  0x3bfe3bfd3bfc3bfb3bfa3bf93bf83bf73bf63bf53bf43bf33bf23bf13bf03c003c063bed3bec3beb3bea3be93be83be73be63be53be43be33be23bdf3c303bd4,
  0x3c793c1d3c1c3c1b3c1a3c193c183c173c2b3c153cdd3c133c123c113c103c0f3c0e3c0d3c0c3c0b3c0a3c093c083c073c053bee3c043c033c023c013bef3bee,
  0x3c243c3d3ce33c3b3c3a3c393c383c373c353be03c343c333c323c313c2f3be03c363c2d3c2c3be13be03c293c283c273c263c253c203c233c223c163c1f39a6,
  0x3c5e3c5d3c5c3c5b3c5a3c593c583c573c633c643c543c523c503ce03c4f3c4c3c4e3c4d3c493c4b3cf63c3e3c483c473c463c453c443c433c423c413c403c3f,
  0x3c7e3c7d3ca13ca73c7a3c7839a43c773c763c753c743c733c7139a43c2139a43c6e3c6d3c6c3c6b3c6a3c693c683c673c663c653c563c553c553c613c603c5f,
  0x3c9e3c9d3c9c3c9b3c9a3c993c983c973c963c953c943c933c923c913c903c8f3c8e3c8d3c8c3c8b3c8a3c893c883c873c863c853c843c833c823c813c803c7f,
  0x3cbe3cbd3cbc3cbb3cba3cb93cb83cb73cb63cb53cb43cb33cb23cb13cb03caf3cae3cad3cac3cab3caa3ca93ca83ca63c7b3ca53ca43ca33ca23c7c3c7b3c9f,
  0x3cde3cdc39de3cf73cda3cd639de39de39de3cd53cd43cd33cd23cd13cd03ccf3cce3ccd3c533c4a39de39de3cc83cc73cc63cc53cc43cc33cc23cc13cc03cbf,
  0x3cfd3cfc3ced3d3d3cfa3cf93cf83cf53c4a3c4a3cf43cf33cf23cf13cf03cef3cee3d363d383cea3dba3ce93e8f3ce53ce23a3d3ce43e9039de3a453cdf39de,
  0x3d1e3d1d3d1c3d1b3d1a3d193d183d163a3d3d143d133d0e3d123d113d103d0f3d0d3d0c3d0b3d033d0a3d093d083d073d063d053d043db83d023d013d003cff,
  0x3d3e3d3c3cec3d3b3d3a3d393d493cec3d2c3cec3d343d333d323d5a3d303d2f3d2e3d2d3d2b3d273d2a3d293d283d263d253cfe3d423d233d223d213d203d1f,
  0x3dc03d5d3d5c3a4f3db53d303d583d573d563d553d543d523d513ceb3dbf3d4f3d4d3e443d4c3a593d483d153cec3d473e913d453d443d433d413cec3d403d3f,
  0x3df13d7c3d7b3d7a3dc83d633d783d753d713d4e3d743d733d723d703d6f3d693d663d6d3d6c3d6b3d6a3d693d683d673e433d653d613d623dd13d533d5f3d5b,
  0x3d973d9d3d9c3d9b3d9a3d993d983d833d963d913d823d933d923d903d8f3d953dcb3d8d3d8b3d793d8a3dac3d873d863d843d853d7f3d813da83d7d3daa3d77,
  0x3ce83dbd3dbc3dbb3db93ce83d9f3ce83db63db43a4d3db33db23db13db03daf3dae3dad3dab3d773da73d773a4d3d823da63da53d603a4d3da23da13da03dd5,
  0x3e4c305d3ddc3ddb3e483dd83dd63dd73dd43dd33d9d3dd03dd23e92305d3dcf3dce3dcd3dcc3dca3ce83d763d8c3ce8305d3dc53dc43dc33dc23dc13dbe3ce8,
  0x3dfe3dfd3dfb3dfa3df93def3df83df73df63e753e863df33df23dd9305d305d3dee3ded3deb305d3de8305d305d3de73de63de53de43de1305d305d3ddd305d,
  0x3e1e3e1d3e1c3e1a3d4b3e0d3e183e173e163e153e143e133e123e113e103e0f3e0e3e0b3e0c3e083e0a3e093e063e073ddf3e493e043e033e013dfc3e003dff,
  0x3e3e3e693e503e3b3e3a3e523e383e373e363e353e343e333e323e313e303e2f3e2e3e2d3e2c3e2b3e2a3e293e283e273e263e513e243e233e223e213e203e1f,
  0x2f7f2f7f3e5c3e5b3e5a3e593e583e573e563e553e543e533e3d3d4b3d4b3e3c3e4e3e4d3e4b3d4b3e6c3e463d4b3d4b3e913e453e423d4b3d4b3e6b3e403e3f,
  0x2f7f2f7f3e933e7b3e7a3e793e783e773e763e743df43e733e723e713e703e6f3e6e3e6d3df53e403e403e683e3c3e673e663e642f7f3e613dd12f7f3e603e05,
  0x3e9e3e9d3e9c3e9b3e9a3e993e983e973e963e953eb13eba2f7f2f7f2f7f2f7f2f7f3e882f7f2f7f2f7f2f7f2f7f3e7d2f7f3df42f7f2f7f2f7f2f7f2f7f2f7f,
  0x412741293ebc3ebb802f3e8e30813eb73eb63eb53eb43eb33eb23e943e8e3eaf3eae3ead3eac3eab3eaa3ea93ea83ea73ea63ea53ea43ea33ea23ea13ea03e9f,
  0x3ede3edd3edc3edb3f123ed9309f3f3c3ed5309b3ed43ed33ed23ed13ed03ecf3ece3ecd3ecc3ecb3ef43ec93ec8309c309b3ec53ec43ec33ec23ec13ec03ebf,
  0x3efe3efd41bf41c03efa3ef950a450a53ef63ef580503ec93ef23ef13ef03eef3eee3eed3eec3eeb3eea3ee93f303f383ee63ee43ee13ee33ee23ee03ed83edf,
  0x4f923f1d3f1c80303f1a3f193f183f173f163f153f013f133f113ed93f103f0f3f0e3f0d3f0c3f0b3f0a3f093f083ee83ee73f053f043f033f023ef33f003eff,
  0x3f3e3f3d3f3b307c3f39307c3f373ee73f35307c3f343f333f323f313f2f3ee73f2e3ee5307c3f2b3f2a3f293f283f273f263f253f413f233f223f143f204f90,
  0x3f443f5d3f5c3f5b3f5a3f593f573f563ebe412b3f543f533f523f513f503f4f3f4e3f4d3f4c3f4b3f4a3f493f483f473f463f5f3f693f4330793f403ee74119,
  0x3f7e3f7d3f7c3f7b3f7a3f793f783f773f763f66411b3f733f723f713f703f6f3f6e3f6d3f6c3f6b3f6a3f683f443f673f643f653f633f4240f93f613f603f45,
  0x3f9e3f9d3f9c3f9b3f9a3f993f983f973f933f953f943f923f913f753f903f8f3f8e3f8d3f8c3f8b3f8a3f893f883f873f863f853f843f83411a3f813f803f7f,
  0x3fbe3fbd3fe13fba3fe93fb83081412c3f583fb53fb43fb33fb23fb13fb03faf3fae3fad3fac3fab3faa3fa93fa83fa73fa63fa53fa43fa33fa23fa13fa03f9f,
  0x3fde3fdd3fdc3fdb3fda3fd93fd83fd73fd63fd53fd43fd33fd23fd13fd03fcf3fce3fcd3fcc3fcb3fca3fc93fc83fc73fc63fc53fc43fc33fc23fc13fc03fbf,
  0x3fbc412f3ffc3ffb3ffa3ff93ff83ff73ff63ff53ff43ff33ff23ff13ff03fef3fee3fed3fec3feb3fea3fe83fb73fe73fe63fe53fe43fe33fe23fbb3fb73fdf,
  0x401e401d401c401b401a4019401840174056405740144013411e40114010400f400e400d400c400b411d400940083f964121400540044001400240003fff3ffe,
  0x403e403d403c403b40524039403840374036403540344033403240314030402f4050402d4061402b40294025402840974098402440234007401640214020401f,
  0x405e405d405c405b405a40594058402e401540154054405140254025404f4025404e404d404c404b404a4049404840474053404540444043404240414040403f,
  0x407e407d407c407b407a407940784076407440754072407340714070406f40034135406d406c406b40a4406940684067408b406540644063408940604015405f,
  0x409e409d409c409b409a4099402740264026409540944093402c41244090408f408e408d408c408a40604088406040874086408540844083408240814080407f,
  0x40bc412840bb40ba40b940b740b840b540b640b440b040b340d540e140af40ae409240ad40ac40ab40aa40a940a840a740a640a540a3406940a240a140a04123,
  0x40fa410b40db40da40be40d940d840d640d140b240b140d340d240d040ce40cf40cc40cd40cb40ca40c94077413940c740c640c540c440c340c240c140c040bf,
  0x40fe40fd40fb40f640de40dd307840f740f5412a40f440f140f240f040ef40ee40d7413b40ec40eb40e740e940e840e6412540e340e440dc40e240e040b140df,
  0x401e30783078411730783078307830784115307841144113411241114110410f410e413e4100410a40dd41094108410741064105410441034102410140ff40fc,
  0x41004100413c413f3ebd41383ebd4137413641343ebd4133413241314130412e3ebd412d41263ebd3ebd30783ebd30783ebd412230783078307841203078411c,
  0x415e414e415c415b415a41594158415741564155415454d354d5415141508031404e414d414c414b414a3f21414841474146414541444143414241414140413d,
  0x417e416f54b654b8417a41764178417750c2805141744173417241714170415d416e416d3efc416b41cb4169416841674166416541644163416241614160415f,
  0x4194419d419c41c3419a419941974196419f418b41944193419241cd4190418f418e418d418c416c418a41d1418841874186418541844183418241814180417f,
  0x3efb41bd419841bb41ba41b941b841b741b641b541b441b341b241b141b041af41ae41ad41ca41ab41aa41a941a841a741a641a541c941a341a241a141a0419e,
  0x41de41e641e841db3ef841d950a641d741d641d5420c41d341d241d03efb41cf41ce41cc3efb41c83efb4194419441ed41c641c541c441c2419441c141be3efb,
  0x41fe41fd4264426841da41f941f850a741f641f541f4421d41f241f141f041ef41ee41ec41c641eb41ea41e941e741dc41dd41dc41e441e341e241e141e041df,
  0x421b41ff41f241ff42004219421842174216421542144213421242114210420f420e420d420b41d3420a426b426f420642053f1f4f94420342024201421c421e,
  0x423d423a423c423b41fc4272423842374236423542344233423242314230422f422e422c4229422b422a4209428342274226422542244223422242214220421f,
  0x425e425d425c425b425a4258424f4257427f425542544253425242514250424e424b424d424c423e42784249424842474246424542444243424242414240423f,
  0x4255427d427b41fb427a427941fa41fb44384275427450a8427141fb4270426e4208427c426c422d42084269426741fb42664265425941fb426242614260425f,
  0x4468429c4277429b429a429942984297429642ab42b54293429242914290428f428e4458428c428b428a428950a942874286428542844282420842814280427e,
  0x42be42bd42bc42bb42ba42b942b8445b42b642b4429442b342b242b142b042ae42ad42e342ac4295429442a942a842a742a642a4429f42a342a242a142a0429d,
  0x42de42dd42dc42db42da42d942d842d742d642d542d442d342d242d142d042cf42ce42cd42cc42ca42c9441d42c742c54f95442942a5420742c242c142c042bf,
  0x42fe42fd42fc42fb42fa42f942f842f742f642f542f442f342f242f142f042ef42ee42ed42ec42eb42ea42e942e842e742e642e54353435a42ad41e142e042df,
  0x431e433a4345431b431a4319431743114316431543144313431242e4435c430f430e430d430c430b430a430943084307430643054304430343024301430042ff,
  0x433e433d433c433b431d431c433843374336433543344333433243314330432f432e432d432c432b432a4329432843274326432543244323432243214320431f,
  0x435e435d435b42e1435942e143584357435643554354431842e143514350434f434e434d434c434b434a43494348434743464344431c4343434243414340433f,
  0x437e437d437c437b437a4379437843774376437543744373437243714370436f436e436d436c436b436a4369436843674366436543644363436243614360435f,
  0x439e439d439c439b439a43a643aa43974396446a43944393439243914390438f438d4388438c438b438a438942c8446f4386438543844383438243814380437f,
  0x43bd43b143bb43b043ba43b943b843b743b643b543b443b343b242c643ae442d43ad438e43ac43ab43a9439843a843a74399439843a443a343a243a143a0439f,
  0x43de43dd43dc43db43da43d943d843d743d643d543d443d343d243d143d043cf43ce43cd43cc43cb43ca43c943c843c743c643c543c443fc440143c143bf43be,
  0x43fe43fd43c343c243fa43f943f843f743f643f543f443f343f243f143f043ef43ee43ed43ec43eb43ea43e943e843e743e643e543e443e343e243e143e043df,
  0x441e43bc42c4441b441a4419441844174416441544144413441244114410440f440e440d440c440b440a44094408440744064405440444034402440043c243ff,
  0x443e4475443c443b443a443944374276443644354434443343c042764430442f442e442c42c4442b442a442842c444274426442544244423442244214420441f,
  0x44ac445d445c508a4276445944574276445644aa4454445044524451428d444f448a44b8444c444b50aa444944484445444644444443444242cb4f794440443f,
  0x447e447d447c447b447a44794478447744764474443c4473447244714470446d4276444e449e446b4469427644674276449c446544644463449044614460449f,
  0x445e4465449b4465449a44b944984497445f44954494449344914459448f4459448e448d448c448b446e444d446250ab4486448544844492448244814480447f,
  0x44be44bd44ea44bb44ba44b7444d444d44b644b544b444b344a850ac44b044af44ae44d444ab445e44a9444d44a144a744a644a544ca44f944a2448844d7449d,
  0x44d144dd44dc44db44da44d944d844d6449d44d544cb449844d2450844d044cf450644cd44cc44b244c444a344c844c744c644c544c344a444c244c144c044bf,
  0x44fe44fd45fb461e44fa44e044a344f744f644f544f444f24f9e44f144f050ad44ee44ed44ec44eb44e944a344e844e7444744e544e444e3450944e144d350af,
  0x451e451d451b44fc451a45194518451745164515461b45134512451145104503469b46c7508f450a450744f344cd44d1450544cd450444f845024501450044ff,
  0x50b0453d45324625453a4539461f4534453645354522462d453145304526452f452e452d452c452b452a45f745fe4527450d452545244523451c45ff4520451f,
  0x455e455d455c455b455a4559454445574554455545534538455245514550454f454e454d454c454b454a454945484547454645454543453f454245824593453e,
  0x457e457d457c457b457a4579457845774576457545744573457245714570456f456e45ab45bc456b456a456945684566453c4565461a450f455645614560455f,
  0x459e459d459c459b459a4599459845974596459545944592454045914590458f458e458d458c458b458a4589458845874586458545844583454145404580457f,
  0x45be45bd45bb456c45ba45b945b845b745b645b545b445b345b245b145b045af45ae45ad45ac456d456c45a945a845a745a645a545a445a345a245a145a0459f,
  0x45de45dd45dc45db460e45d945d845d7460c45d54567462745d245d145d045cf45ce45cd45cc45cb45ca45c945c845c745c645c545c445c345c245c145c045bf,
  0x44fb452845fc455844fb45f945f84529452845f545f445f3462a45f145f045d4453b45ed45ec45eb45ea45e945e845e745e645e545e445e345e245e145e045df,
  0x44fb44fb461c461944fb453b4618464146164615461446134612461146104646460d45d5460b45d5460a462e46084607460545284606460346024601460045fd,
  0x4fa2450e46c9463b463a463946384637463646354633462f463246314630462c50b244fb44fb462b462945f146284626453b4624453b45644622462146204644,
  0x465e465d465c4659465a4658465746564653463f465446cd464846514650464f464e464d464c464b46934697463446474645460d46434608464246404616463e,
  0x467e467d467c467b467a4679467846774676467546744673467246714670466f466e466d466c466b466a4668463d4667466646654663465b466246614660465f,
  0x469e46d046d64699450c469246984cb346494a374694464a46494cb44690468f468e468d468c466946554689468846874686468546844683468246814680467f,
  0x46be46bd46bc4d1e4d2c46a546b846b746b646b546b446b346b246b146b046af46ae46ad46ac46ab46aa46a946a846a746a646a446a046a346a246a1469f50b3,
  0x46de46dd46dc46db46da46d946d846d746d5469c46d446d346d246d1469d469c46ce46cc450c46cb46ca46c4450c46c6450c46c546c346b94d0046c146c046bf,
  0x46fe46fd46fc46fb46fa46f946f846f746f646f546f446f346f246f146f046ef46ec46ed46e546eb46ea46e946e846e746e6469a4cb546e346e246e146e046df,
  0x471e471d471c471b471a4719471847174716471547144713471247114710470f470e470d470c470b470a470947084707470647054704470347024701470046ff,
  0x473e473d473c473b473a47394738473747364735473147334732472a4730472f472e472d472c476d47724cb7472847274726472547244723472247214720471f,
  0x475e475d475c475b475a4759477147574756475547544753475247514750474f474e474d474b4747474946974748472b4779474547444743474247414740473f,
  0x477e477d477c477b477a477846ee47774776477547744773477046ee4757476f476e474c46ee476b476a4769476847674766476547644763476247614760475f,
  0x483c479d479c479b479a4799479847974796479547944793479247914790478e478d478a478c478b478347894788478747864785478447344cb847814780477f,
  0x47b547bd47bc47bb47ba47b947b847b747b647a9483d47b347b247b147b047af47ae47ad47ac47ab47aa47a8479f47a747a647a547a447a347a247a147a0483b,
  0x47de47dd47dc47db47c0484247d847d747d647d547d447d347d247d147d047cf47ce47cd47cc47cb47ca47c947c847c747c647c547c447c347c247c147be47bf,
  0x47fe47fd47fc47fb47fa47f947f847e6484a47f547f447f347f247f147f047ef47ee47ed47ec47eb47ea47e947e847e747e347e547e447da47e247e147e047df,
  0x481e481d481c481b481a4819481848174816481548144813481248114810480e4808480d480c480b480a48094807480348494805480448004802480147f747ff,
  0x483e483a479e479e479e48394838483748364835483448334832480f479e482f482e482d482c482b482a4829482848274826482548244823482248214820481f,
  0x485e485d485c485b485a48594858485748774878485448534852484f4850484e484b484d484c48444848479e479e484748464845478f4cbc4841479e4840483f,
  0x487e487d487c487b487a4879485648554855487548744873487248714870486f486e486d486c486b486a4869486848674866486548644863486248614860485f,
  0x489e489d489c489b489a48994898489748964895489448c948aa48914890488f488e488d46964a3c488a4889488848874886488548844883488248814880487f,
  0x48b748bd48bc48bb490d488c491a48514cbe48b548ae48a648a648a648b048af48a748ad48b448ab48a9489248a848b248b348a548a448db48a248a148934892,
  0x48de48dd48dc48da489248d948d848d748d648d548d448d348d248d148d048cf48ce48cd48cc48cb48ca48c7489248c448c648c548c248c348c148be48c048bf,
  0x48e948fd48fc48fb48fa48f948f148e948f648f548f448f348f248f048ea48ef48ee48ed48ec48eb48ff490248e848e748e648e548e448e348e248e148e048df,
  0x491d4914491c491b491948b84918491749164915498c498e491249114910490f490e48b948b8490b490a4909490849074906490549044903490148e9490048fe,
  0x493e493d493c493b493a49394938493649354934492b4933493249314930492f492e492d492c491e49934929492849274926492549244923492249214920491f,
  0x495e495d495c495b495a49584954499a4956495549534952495149484950494f494e494d494c494b494a49494937499b4946494549444943494249414940493f,
  0x497e497d497c497b497a4979497849774976497549744973497249714970496f496e496d496c496b496a496949684967496649654964496349624961495f4959,
  0x499e499d499549994913491349984997499648c84cc04992491349914990498f498d4913498b4913498a4989498849874986498549844983496049134980497f,
  0x49be49bd49bc49bb49ba49b949b849b749b649b549b449b349b249b149b049e849ed49ad49ac49ab49aa49a949a749a649a549a249a449a349a049a1499f499c,
  0x49de49dd49dc49db49da49d949d849d749d649d549d449d349d249d149d049cf49ce49cd49cc49cb49ca49c949c849c749c649c549c449c349c249c149c049bf,
  0x49fe49fd49fc49fb49fa49f949f849f749f649f549f449f349f249f149f049ef49ee49ec49ae49eb49ea49e949af49ae49e649e549e449e349e249e149e049df,
  0x4a124a124a124a1b4a1a4a134a184a1f4a164a154a144a1d4a1e4a114a104a4a4a0e4a0d4a0c4a0b4a0a48ba46954a074a064a054a044a034a024a014a0049ff,
  0x4a3e4a3d4a3b46954a3a4a394a354a3646954a344a334a304a324a314a2e4a2f4abd4a2a4ac14a2b4a234a294a284a274a264a254a244a224cc249a84a204a19,
  0x4a5e4a5d4a5b4a434a5c4a594a584a574a564a554a544a534a524a514a504a4f4a4d4a434a4c4a4b4a494a0e4a484a474a464a454a4e4a434a424a414a404a3f,
  0x4a7e4a7d4a7c4a7b4a7a4a794a784a774a764a754a744a734a724a714a704a6f4a6e4a6d4a6c4a6b4a6a4a694a684a674a664a654a644a634a624a614a604a5f,
  0x4a9e4a9d4a9c4a9a4a994a984a974a964a954a944a914a934a924a8f4a904b844a8b4b884a8c4a844a8a4a894a884a874a864a854a384cc34a824a814a804a7f,
  0x4abe4a2d4a2c4abb4aba4ab94ab84ab74ab64ab54ab44ab34ab24ab14ab04aaf4aae4aad4aac4aab4aaa4aa94aa84aa74aa64aa54aa44aa34aa24aa14aa04a9f,
  0x4ade4add4adc4adb4ada4ad94ad84ad74ad64ad54ad44ad34ad24ad14ad04acf4ace4acd4acc4acb4aca4ac94ac84ac74ac64ac54ac44ac34ac24ac04a2c4abf,
  0x4afe4afd4afc4af44aec4af94af84af74af64af54af34aed4af24af14af04aef4aee4b024b054aeb4aea4ae94ae84ae74ae64ae54ae44ae34ae24ae14ae04adf,
  0x4b1e4b1b4b1c4b1a4b174b194b184b104b164b154b144b134b124b114a9b4cc44b0e4b0d4b0c4b0b4b0a4b094b084b074b064b044aec4b034b014aec4b004aff,
  0x4b3e4b3d4b3c4b3b4b3a4b394b384b374b364b354b344b334b324b314b564b644b2e4b2d4b2c4b2b4b2a4b294b264b274b254b244b234b224b214b204b1d4b1f,
  0x4b5e4b5d4b5c4b5b4b5a4b594b584b574b304b2f4b544b534b524b514b504b4f4b4e4b4d4b4c4b4b4b494b3f4b484b474b464b454b444b434b424b414b4a4b3f,
  0x4b7e4b7d4b7c4b7b4b7a4b794b774b6d4b764b754b744b734b724b714b704b6f4b784b6d4b6c4b6b4b6a4b694b684b674b664b654b634b2f4b624b614b604b5f,
  0x4b9e4b9d4b9c4b9b4b9a4b994ba24b974b964b954b944b934b924b914b904b8f4b8e4b8d4b8c4b8b4b8a4b894c184a8d4c194b854a8e4a8d4b824b814b804b7f,
  0x4bbe4bbd4bbc4bbb4bba4bb94bb84bb74bb64bb54bb44bb34bb24bb14bb04b874bae4c264bac4bab4baa4ba94ba84ba74ba64ba54ba44ba34ba14b974ba04b9f,
  0x4bdd4bd04bdc4c1d4bda4bd94bd84bd74bd64bd54bd44bd34bd24bd14bcf4bc64bce4bcd4bcc4bcb4bca4bc94bc84bc74c0f4c1e4bc44bc34bc24bc14bc04bbf,
  0x4bfe4bfd4bfc4bfb4bfa4bf94bf84bf74bf64bf54bf44bf34bf24bf14bf04bef4bee4bed4bec4beb4bea4be94be84be74be64be54be44be34be24be14be04bdf,
  0x4c1c4bc54bc54c1b4c1a4baf4b864b864c164c154c144c134c124c114c104c0e4bc54c0d4c0c4c0b4c0a4c094c084c074c064bde4bc54c034c024c014c004bff,
  0x4c3e4c3d4c3b4c314c3a4c394c384c374c364c354c344c334c3c4c314c304c2f4c2e4c2d4c2c4c2b4c2a4c294c284c274c254b864c244c234c224c214c204c1f,
  0x4c5d4c5c4c5b4c5a4c594c574c554ca24c564ca14c544c524c4f4c514c504c484c4e4c4d4c4c4c4b4c4a4c494b284cc64c464c454c444c434c424c414c404c3f,
  0x4c7e4c7b4c7c4c724c7a4c794c784c774c764c754c744c734c624cb04c704c6f4c6e4c6d4c6c4c6b4c6a4c694c684c674c664c654c644c634c5e4c584c604c5f,
  0x4c9e4c9d4c9c4c9b4c9a4c994c984c7d4c534c954c944c934c924c914c904c8f4c8e4c8d4c8c4c8b4c8a4c894c884c874c864c854c844c834c824c814c804c7f,
  0x4cbd468b4cbb468b4cba4cb94cb6468b468b4cb2468b468b468b4cb14caf4c534cae4cad4cac4c61468b4ca94ca84ca74ca64ca54ca44ca34ca04c534c534c9f,
  0x4cdd4cd94cdc4cdb46c846c250b54cd74cd64cd54cd44cd34cd24cd14cd04ccf4cce4ccd4ccc4ccb4cca4cc94cc84cc74cc5468b4cc1468b468b468b4cbf468b,
  0x4cfe4cfc4cf24cfb4cfa4cf94cf84cf74cf64cf54db94dd94cde4cf14cf04cef4cee4ced4cec4d124cea4ce94ce84ce74ce64ce54ce44ce34ce24ce14ce04cdf,
  0x4d1546ba4d1c4d1b4d1a4d194d184d174d164d144d074d1146c246c24d104d0f4d0e4d0d4d0c4d0b4d0a4d094d0846bb4d2f4d054d044d034d134d014cff46c2,
  0x4de14d3d4d3c4d3b4d3a4d394d384d374d604d354d344d334d5a4d314d304d2e46ba4d4a4d2b46ba4d2a4d294d284d274d264d254d244d234d224d214d484d1f,
  0x4d3f4d5d4d5c4d5b4d594d314d584d574d4c4d554d544d534d8a4d514d504d4f4d764d4d4d4b4d474d494d1f4d464d1f50954d454d444d434d424d414d404cf4,
  0x4d7d4d784d7c4d7b4d7a4d794d774d734d754d4d4d744d7250b64d714d704d6f4d6e4d6d4d6c4d6b4d6a4d694d684d674d664d654d644d634d624d614d5e4d35,
  0x4d9d4d9c4d9a4d9b4d994d974d984d964d8c4d954d944d934d924d914e034d8f4d8e4e814e864d8b4d894d4d4d884d874d864d854d5f4dec4d824d814d804d7f,
  0x4dbe4dbd4dbc4dbb4dba4dac4cf34db74db64db54db44db34db24db14db04daf4dae4dad4dab4da44daa4da94da84da74da64da54da34d844da24da14da04d9f,
  0x4dde4ddd4dd84dd74d904dd54cf34d8d4e874dd450b74dd34dd24e124dd04dcf4dce4dcd4dcc46644dca4dc94dc84e054d9e4dc54dc44dc24dc14ded4dc04dbf,
  0x4dfc4dfd4dfb4e154dfa4df84e184deb4df64df54df44df34df24df14df04f1d4f1f4dea4dc14cf34fa34de94de84de74de64de54de44de34de24ddf4cf34dda,
  0x4e1e4e1d4e1c4e1b4e1a4e194e174dee4e164df94dee4e104e114d904e0f4e074e0e4e0d4e0c4e0b4e0a4e094e084dff4e064e044d904e024d904e014e004dfe,
  0x4e684e3d4e3a4e3b4e364e394e384e374ddc4e8b4e344e334e324e314e304e2f4e2e4e2d4e2c4e2b4e2a4e294e284e274e264e254e244e234e224e214e204e1f,
  0x4e5e4e5d4e5c4e5b4e5a4e594e584e574e564e554e8e4e514e524e504e4d4e4f4e4e4e4b4e4c4e474e4a4e494e484e3c4e8f4e454e444e434e784e414e404e3f,
  0x4e7e4e7d4e7c4e7b4e794e6a4e774e414e7a4e754e744e734e724e714e704e6d4e6e4ebe4e6c4e6a4ebf4e694e654e3d4e664e614e644e634e624e544e934e5f,
  0x4ec84e9d4e9c4e9b4e9a4e994e984e974e964e954e944e924d7e4ebb4e904e8c4d7e4d7e4e824e8a4d7e4ead4e884e854d7e4d7e4e844e8d4e824e6f4d7e4e7f,
  0x4e674e674ebc4eba4e824eb94eb84eb74eb64eb54ede4eb34eb24eb14eb04eaf4eae4e6b4e824eab4ecc4ea94ea84ea74edc4ea54ea44ea34ea24ea14ea04e9f,
  0x4edd4eb34edb4ea54eda4ed94f024ed74ed64ed54ed44ed34ed24ed14ed04ecf4ece4ecd4ef94e674ec04ec94ec74e9d4ec64eeb4ec44ec34ec24ecb4ec04eac,
  0x4efe4efd4efc4efb4efa4ef84ec04ef74ef64ef54ef34eee4ef14ef04def4f224eed4ee94eec4eea4ec04ee850b84ee74e144ee54ee44ee34f184ee14ee04edf,
  0x4de04f1a4de04f164f194f134f174ee14f004f154fb34f124ef24f114f0f4f0d4f0e4f0c4f014f0b4f0a4f094f084f074f064fa54f044f034fb04ed74eff4fa4,
  0x4f3e4f3d4f3c4f3b4f3a4f394f384f374f364f354f344f334f324f314f304f2f4f2e4f2d4f2c4f2b4f274f294f254de04f264f244f1c4f284f214de04f204f1e,
  0x4f5e4f5d4f434f424f5a4f594f584f574f564f554f544f7d4f524f514f504f4f4f4e4f4d4f4c4f4b4f4a4f494f484f474f464f454f444f5c4f624f414f404f3f,
  0x50b94ef44f524f7a4f054f2a3f1e4f774f764f754f744f734f724f714f9a4f6f4f6e4f6d4f6c4f6b4f6a4f694f684f674f664f654f644f634f614f424f604f5f,
  0x4f9d3f1e4f9c4f99509c4f6f4f984f964f914f933f1e3f1e4fc23f1e4f8c3f1e4fe24f8d4f8b50ba50994f894f884f874f864f854f844f83509050734f804f7f,
  0x4fbe4fbd4fbc4fb64fba4fb94f9b4fb74fb54fa14fb44fb24f054fb14faf4ef44fae5083508d4fab4faa4fa94fa84fa74fa650bc4f053f1e3f1e3f1e4fa04f9f,
  0x4fde4fdd4fdc4fdb4fda4fd94fd84fd74fd64fd54fd44fd34f8250964fd04fcf4fce4fcd4fcc4fcb4fca4fc94fc84fc74fc64fc54fc44fc34f8f4f8e4fc04fbf,
  0x4efe4ffd4ffc50064ffa4ff94ff84ff74ff250774ff44ff34ff14fef4ff04fee4fd24fed4fec4feb4fe94ee84fe84fe74fe64fe54fe44fe350934f8e4fe04fdf,
  0x501d5005501c501b501a5019501850175016501550145013509850115010500f500e500d500c500b500a50095008500750044ff25001500350024ff6509b4ffe,
  0x5075503d503c503b50545039503850375045503550345033503250315030502e502b502d502c502650a2502950285027502550245023502150225020501e501f,
  0x505e505d505c505b505a505850535057505650555052501e50505051504f504e50a1504b504c504a504850495047502f50465044501e5043504250415040503f,
  0x507e507d507c507b4fbb50c9507850764f815074503d50594f8150715070506f506e506d506c506b506a5069506850675066506550645063508850615060505f,
  0x509e509d509a4f974f8150973ef74f81507a4f813ef750924f815091508e4f813ef7508c4fac508b50893ef750865052508550bb50844fad4fac50815080507f,
  0x50be50bd50b44f9750853ef73ef73ef73ef73ef73ef750b13ef73ef750ae3ef73ef750a33ef73ef73ef73ef73ef73ef73ef73ef73ef73ef750a04f814f81509f,
  0x50de50dd50dc50db50da50d950c850d550d65519555550d350d250d150d050cf50ce598b598d50cb50ca80524f9750c750c650e950f950c3417d417550c050bf,
  0x417c54b950fc50fb50fa50e850c4556c50f650f550f450f350f250f150f050ef50ee50ed50ec50eb50ea50d850c450e750e650c550e450e350e250e150e050df,
  0x511e511d511c5132511a511951185117511651155114511351125111511051205130510c510b415354d651095108510751065105510451035124513450ff50fe,
  0x513e513c510d54b7513a513951385137513651355133510151315109512f510e512e512d51625163512a5128510054ba512651255102510151225121510f510e,
  0x515e515d515c515b515a5159515851575156515551545153512c5151516a514f514e514d514c514b514a5149514851475146514551445143514251415140513d,
  0x517e517d517c517b517a517951785177517651755174512951725171516f5129516e516d516c516b51705129516851675166516551645152512951295160515f,
  0x519e519d519c519b519a51995198519451cc51955193512b54bb51915190518f518e518d518c518b518a5189518851875186513f54d85183518251815180517f,
  0x51be5197519651bb51ba51b951a454df51b651b551b451b351b251b151b051af51ae51ad51a851fb51fe51a951a751bd54bc51a551a251a351a151a05185519f,
  0x51de51dd51dc51db51d851d952a251d552a651d451d351b851d251d151d054d951ce51cd51cb519651ca51c951c851ac51c65212521d51c351c1417554bd51bf,
  0x54be51aa51fc51ed51aa51f951f851f751f651f551f451f351f251f151f051ef51ee51ec51ea51eb51ab520051e851e751e651e551e451e351e150e151e051df,
  0x521b54c251c4513254c15219521751175216521552065213521151c451c5520f520e520d520c520b520a52095208520751c75205520452035202520151ff51aa,
  0x523e523d523c523b523a5239523752365228525c52345233523252315230522f522e522d522c522b522a525452265256521f52255224522352b752bb5220521e,
  0x525e525d525b5227525a5259525852575255522752385227525252515250524f524e524d524c524b524a5249524852475246524552445243523952415240523f,
  0x527e527b527c5279527a52725278527752765275527452735271522954c4526f526e526d526c526b526a526952685266522751da54e15263526252615267525f,
  0x529e529d529c529b529a5298529552975296522252bf5293529252915290528f528e528c5287528b528a5288528551d75286528452aa5283528152805265527f,
  0x522152bd52bc52ba522152cc52cd5299522152b552b452b352b252b152b052af52ae52ad52ac52ab52a951d652a852a752a551d652a452a3528951d652a0529f,
  0x528d54e452dc52db52da52d952d852d652b852d552d452d352d252d152d752cf52ce52b952b852b852ca52c952c852c752c652c552c452c352c252c152c052be,
  0x52f452fb52fc52fa52f952de52f8537651f6537a52f252f352f152ef52f052ed54c552e452ec52eb52ea52e953f152e752e551e554c7527d52e252e152e052df,
  0x531e531d531c531b531a5319531853175316531553145313531253115310530f530e530d530c530b530a5307530853f45305530054e253035302530152fe52ff,
  0x533e533d533c533b533a5339533853375336533553345333533253315330532f532e532d532c532b532a5329532853545361532553245323532253215320531f,
  0x535e535d535c535b535a5359535853575356535553275326535253515350534f534e534d534c534b534a5349534853475346534553445343534253415340533f,
  0x537e537d537c537b537952f553785377536d52f553745373537253715370536f536e536c5369536b536a52f6538153675366536553645363536253605326535f,
  0x5395539d539c53cf539a53995398539753965394539353915392539053b8538f538c538553ff53ee53f753895383538753865384530954a854e5538052f5537f,
  0x53be53bd53bc53ba53b653b75385538553f953b353b453b2538d53b153c053ae53ac53ad541853aa542153a953b953a753a653a353a453a253a054c8539f539e,
  0x53de53dd53dc53db53da53d953d853d753d653d553d453d353d253d1540353ce539a53cd53cc53bb52e853c953c853c753c653c553c453c353c253c153bf5385,
  0x52e853fd53fc53fa54e653f852e853f6538a53f553f352e853f253f052e853ef538b538a53ec53eb53ea53e953b053e753e653e5540653e353e253e153e053df,
  0x541b54c9541c541a540e5419541753a553fb541554145413541254115410540f540d5405540c540b540a54095408540753ab52e85424540252e85401540053fe,
  0x543c543d543b5439543a54385436543754345435542d5470547154315430542f542e542c5429541e54e75427542854265422544f545053a5541d542053a5541f,
  0x545e545c545b544e54575459545854565454545554535452544d5451544b5423542354ca544c544a5425544954475446542b544554445443543e54415440543f,
  0x547e547d54a2547b547a54795478547754765475547454735472543354325432546e546d546b546954cb54685466546754645465545d5463546254615460545f,
  0x549e549d54ea54f8549a5499549854975496549554945493549254855490548f548e548d548c548b548a5489548854875486546f54e85483548254815480547f,
  0x549f417b417b417b417b417b417b417b4152417b54b454b354b254b053c054af54ad549f54ac54a054aa54a753b9417b54a654a554a454a354a1547b54ae54bf,
  0x415254dd54dc54db54da54d44152415254c34152415254d2415254d054c354c654ce54cd54cc54d1417b417b417b417b417b54d7417b417b54c0417b417b54b5,
  0x54fe54fd54fc54fb54fa54f954f7549b54f654f554f454f354f254f154f054ef54ee54ed54ec54eb549c549b54e34152415241524152415254e04152415254de,
  0x551e551d55365539551a50f8555a55175516551555145512541255115510550f550e550d550c550b550a55095508550755065505550455035502550154ff53fe,
  0x543c553d553c553b556d5538551b5537551c551b552350d4553255315530552f552e552d552c552b552a55295978597a55265525803250d7552255215520551f,
  0x50cd598f555c555b555950d4555855575553545550d755525528597d5550554f554e554d554c554b554a55495548554755465545554354435542554155405533,
  0x556b599059fe557b557a805355785577557655755574557355725a655a6e556f556e803350d450d4556a556955685560556655655563546355625561555f555e,
  0x55c8558d559c559b559a559855965597557d5a0455945593559255915590558f558e59fb558c558b558a558955885587558655855584558355be558055c4557e,
  0x55b9557f55bc55bb55ba55cb55b655b755b555b255b455b355b155ac55b055af55ae55ad55a555cf55aa55a955a855a755a655a4559f55a355a255a155a05581,
  0x55de55db560c55da55d955d85582599255d655d555d455d255d055d1555455ce557f597f55cc55ca557f55c955c7557f55c655c555c3557f55c255c155c055bf,
  0x55fe55fd55fc55fa55f755f955f855dd560e55f555f455f3562d55f0567755ed567955ec55eb55ea5608599355e755e655e555e355e455e255e155d3598055df,
  0x561b5996561c561a56185617555a5616561555f159835613561256115610560f560d55dc560b55dc560a560955fb55dc560656055604560356025601560055ff,
  0x562855ee563c563b563a5639563856375636563556345633563256315630562f562e562c55f0562b562a5629562755ef562456255664562156785620561f561e,
  0x565e565d565c565b564d564b565856575656568256545653565256515650564f564e565a56625649564a5647564859865644564556435642564156265997563f,
  0x567e5703567c567b567a567655ee562255ee567556745673567256715670566f566e566d566c566b570257065668566756665665566356225623564b5660565f,
  0x569e569d569b5695569c569956985697569656955694568f561d56915690566a5705568d568c568b568a5689568856875686568556845683570456545680567f,
  0x56be56bd56bc56bb56ba56b956b856b756b656b556b456b356b256b156b056af56ae56ad56ab56a956aa56a756a856a656a556a356a456a2573c569357435715,
  0x56de56dd56d8566956da56d956d756d256d656d556d456d356d156ca56d056cf56ce571456cc56cb56c556c956c856c756c656a056c456c356c256c1570e56bf,
  0x56fe56fd56fb56f956fa56f856f656f756f4599c58e256f256f056f156ef56ee56eb598956ec56e956ea56e756e8574556e4574c56e356e256e156ac599956df,
  0x5967571d571c571b571a5719571857175716571356695669571257115710570f570d5669570c570b570a570957085707570156695669566956695669570056ff,
  0x573e573d56a1564c573a5739573857375736573557345733573257315730572f572e572c59695729572a572757285725572657245722572357215720571f56ed,
  0x575e572d575b594b598a57595758575757565755575457535752575056e5574f574e5751574b56e5574a574957485747574656e656e55742564c57415740573f,
  0x5775577d596b5779577a57785777575c57765773596f577157725962576e5968576d576a576b5769599d5768576657675765576357645761595e5964575f575d,
  0x579d579c579b579a577f5799579857975796579557945793579257915790578f578e578d578c578b578a5789578857875786589458985783578257a95780577e,
  0x57be57bd57bc57bb57ba57b957b857b757b657b557b457b357b257b157b057af57ae57ac57ab57aa578557a8578057a757a657a557a457a357a257a15896579e,
  0x57de57dd57dc57db57da57d95822583157d657d557d457d357d257d157d057cf57ce57cd57cc57cb57ca57c957c857c757c657c456c457c357c257c156f558e6,
  0x57fe57fd57fc57fb57fa57f957f857f757f657f557f457f357f257f157ef57e2583057ed57ec57eb57e957c057e857e757e657e557e457e357e157d857e057df,
  0x581e581d581c581b581a581957f057d75816581558145813581258115810580f580e580d580c580b580a580958085807580658055804580358025801580057ff,
  0x583e583d583c583b583a583958385837585058545834583358a1582f57d757d7582e582d582c57ad58a65829582858275826582558245823582157d75820581f,
  0x585d5855585c585b585a58595858585657565852585358355851584f582b58355836584d584c584b584a5849584858475846584558445843584258415840583f,
  0x587e587d587c587b587a58795878587757ea58ec58745873587258715870586f585e5784586c586b586a5869586858675866586558645863586158355862585f,
  0x589e58915890589b589a5899589757845895578458935784589258b9589d588f588e5974588c588a5881588958c0588758865885588458835882579f5975587f,
  0x58be58bd58bc58bb5912591e589056f3597958b458b358af58b258b158b058ae58ab58ad58ac58aa590e58a8591058a5588b578458a358a058cb589f57845876,
  0x58dd58dc58c158db58da58d958d858d758d658d558d458d358fd590858cf58ce58a9591a58cc58ca589058c958c858c758c658c558c458c358c258bf58b75887,
  0x58fe58f458d158fb58fa58f958f858f758f658f558f358e958f258f158f058ef58ee58ed58d256f358ea58e5590f58e758e456f358e158e358e056f358df58de,
  0x591d58a4591c591b591958a759185917591659155914591358ba58a4590d58a758d158a758d0590b590a5909590758d1590659055904590359025901590058ff,
  0x593e593d593c593b593a59395938594a59365935593459335932593159305955592e592d592c592b592a5929592859275926592559245923592259215920591f,
  0x57625760595c577c595a59595958576c59565954592e5953595259515950594f594e594d594c594956fc590d5948594759465945597b59435942594056fc58eb,
  0x5527597c5527597756fc552756fc55275976597356fc56fc597259715970596e56fc596d596c596a56fc599f56fc576f56fc5965596357605770576f5960595f,
  0x50cc599b50cc50cc5571599850cc599550cc50cc5994599150cc50cc559d50cc50cc598c50cc598850cc552755275987598555275984598255275981597e5527,
  0x59be59bd59bc559959b959b159b859b759b659b559b459b359b2599e5a7259af59ae59ad59ac59ab59aa59a959a85b815b9259a559a46412641359a159a08054,
  0x59de59dd59dc59d959da59d45a0559d759d659d559d359d159d259bf5a08803459ce59cd59cc5aa85ab859c959c85b9c5b9d59c559c4643259a359c159c059b0,
  0x59fd557c59db59f8557c59f959f759ef59f659f559f459f359f259f159f059ba5a5459ed59ec59eb59ea59e959e859e759e659e559e459e359e259e159e059df,
  0x5a1e5a1d5a1c5a1b5a1a5a195a185a175a165a325a365a135a125a115a105a0f5a0e5a5e5a625a0b5a09557c5a0a557c5a065a03557c557c5a025a015a0059ff,
  0x5a6c5a3d5a3c5a3b5a3a5a395a385a375a355a145a345a335a155a145a305a2f5a2e5a2d5a2c5a2b5a2a5a295a285a275a265a255a245a235a225a215a205a1f,
  0x5a435a0c5a5c5a5b5a5a5a595a585a575a565a5559fc55705a525a515a505a4f5a4e5a4d5a4c5a755a4a5a495a485a475a465a455a445a425a3f5a415a405a0d,
  0x5a7e5a7d5a7c5a7b5a7a6af56af75a775a7680355a4a5a735a7155705a705b0a5b1555705a6b5a0c5a6a640963ea5a6759d05a6455705a635a615a0c5a605a5f,
  0x6e3f5a9d5a9c80555a9a5a995a985a975a965a875a9459cb5a925a915a905a8f5a8e5a8d5a8c5a8b5a8a5a895a885a745a865a855a845a835a825a815a805a7f,
  0x5abe5abd5abc5abb5aba5ab95ab759ca5ab65ab55ab459c75ab25b9e5ab05aaf5aae5aad5aac5aab5aaa5aa95a9559ca5aa65aa55aa45aa35aa25aa15aa06e3e,
  0x5ade5add5adc5adb5ada5a6f5b195ad75ad65ad55ad45ad35ad25ad15ad05acf5ace5acd5acc5acb5aca5ac95ac85ac75ac65ac55ac45ac35ab35ac15ac05ba7,
  0x5afe5aec5afc5afb5bab5af95af85af75af65af55af45af35b1a5af15af05aef5b135aed5aeb5ae35aea5b125ae85ae75ae65ae55ac25ad95ae25ae15baa5adf,
  0x5b095b1d5b1c5bad5b185ae85a6d5b175b165b145a6d5b115ae85ae85b1059a75b945ba65b0c5b0b5b085a6d5b065b075ae45afd5b045b035b025b015b005aff,
  0x5b3e5b895b3c5b3b5b3a5b865b385b375b365b355b345b335b325b5c5b305b2f5b2e5b855b2c5b295b2a5bae5b285b265bb65b255b245b235b845b935b1f5b0f,
  0x5b535b215b5b5b305b595a595b585b575b565b555b545b8f5b4f5b515b505b4e5b4d5b4c5b4a5b4b5b475b495b485b225b465b8b5b445b435b425b415b405b3f,
  0x5b7e5b7d5b9a5b7b5b7a5b795b785b775b765b755b975b735b725b715b705b6f5b6e5b0e5b0d5b6b5b6a5b695b685b675b665b655b645b635b625b605a605b96,
  0x5b2b59c659c659c65b995b215b985b955b215b215b9159a65b2159a65b905b8e5b215b8d5b8c5b8a5b215b885b215b875b835b215b215b215b825b2059a65b7f,
  0x5bbe5bbd5bbc5bbb5bba5bb95bb85bb75be85b1e5bb45bb35bb25bb15bb05baf5b275b1e59c65ba959c659c65ba85ba559c65b0d5ba45ba35ba25ba15ba05b9f,
  0x5bde5bdd5bdc5bdb5bda5bd959c35bd764345bd55bd45bd35bd25bd15bd05bcf5bce5bcd5bcc5bcb5bca5bc95bc85a69640b5bc55bc45bc35bc25bc15bc05bbf,
  0x5bfe5bfd5bec5beb5beb5bf95bf65c935bd85bf55bf45bf35bf25bf15bf05bef5bee5bed5bfb5bfc5bea5be964335bb45be55bc75be45be35be25be15be05bdf,
  0x5c0b5c1d5c1c5c1a5c145c1b5c185c175c165c155c145c135c125c115c105c0f5c0e5c1f5c295beb5c0a5c095c0c5c075c065c055c045c035c015b015c005bff,
  0x5c3e5c3d5c3c5c975c9b5be6640d5c375c365c355c405c335c325c315c2f5c215c2e5c2d5c2c5c2b5c2a5c285c0b5c275c305c255c245c235c225c215c205c0d,
  0x5c5e5c5d5c5c5c5b5c595c585c575c395c565c555c545c535c525c515c505c4f5c8f5c4d64355c4b5c4a5c495c485c475c465c455c445c435c425c415c3f5c2e,
  0x5c7e5c7d5c7c5c7b5c7a5c865c755c8b5c765bf85ca35c735c725c715c705c6c5cd55cde5c4e5c6b5c6a5c695c685c675c665c645c615c635c625c3b5caf5c5f,
  0x64365c9d5c9c5c9a5c3a5ca75c985c655c3a5c955c945c925bf75c915c905c795bf75c8d5c8c5c8a5c775c895c885c875c785c775c845c835c825c815c805c7f,
  0x5ca05cbd5cbc5cbb5cba5cb95cb85cb75cb65cb55cb45cb25caa5cb15cb05cae5c3a5cad5cac5cab5c6e5ce35ca85ca65bf75ca55ca45ca25bf75ca15c6f5c9f,
  0x64375c6d5cc25d6263ed5cd95cd85cd75cd65cd25c6d5cd35cd15ccd5cd05d065cce5ccc5cc45ccb5cca5cc95cc85cc75cc65cc55cb35ce55cbe5cc15d235d25,
  0x5ce05cfc5cfb5cfa5cf95cdb5cf85cf75cf65cf55cf45d1c5cf25cf15cf05cef5cee5ced5cec5ceb5cea5ce95ce85d155ce65ce45c6d5ce25c6d5ce15cdd5cdf,
  0x5ce65d1b5cfe5ce6640e5d195d185d175d165d145ce65d125d115cc05d295d0f5d0e5d0d5d1f5d0b5d0a5d095d085d075d055cce5d045cfd5d025d015de55de8,
  0x5d855d3c5d955d3a5d395d1e5d385d375d365d355d345d335d325d315d305d2f5d2e5d2d5d2c5d2b5d2a5d285cbf5cdc5c5a5d245cbf5d135cbf5d215d205d1d,
  0x5d5e5d5d5d5c5d425d415d595d585d575d565d555d545d535d525d515d505d4f5d4e5d4d5d4c5d4b5d4a5d495d485d475d465d455d445d435d5b5d605d405d3f,
  0x5d7e5d7d5d7c5d7b5d7a5d795d785d775d765d755d745d735d725d715d705d6f5d6e5d6d5d6c5d6b5d6a5d695d685d675d665d655d645d635d615c5a5d5f5d41,
  0x5d9e5d9d5d9c5d9b5d9a5d995d985d975d965d945d3b5d935d925d915d905d8f5d8e5d8d5d8c5d8b5d8a5d895d885d875d865d3d5d3b5d835d825d815d805d7f,
  0x5dbe5dbd5dbc5d035dba64195db85db75db65db55db45db35db25db15db05daf5dae5dad5dac5dab5daa5da95da85da75da65da55da45da35da25da15da05d9f,
  0x5dde5ddd5ddc5ddb5dda5dbb5dd85dd75dd65dd55dd45dd35dd25dd15dd05dcf5dce5dcd5dcb5dc95dca5d005dee5dc75dc65dc55dc45dc35dc25dc15dc05dbf,
  0x5de35dfd5e055e165dfa5df95df85df75df65df55e195e275df25df164395dea5ded5cff5dec5deb5ddf5de9643a5cff5de65dcc5cff5de25de05de15d3e6410,
  0x5e595e1c5cfe5e1b5df45e175df35e1564175dfb5e045e135e125e0f5d295e0e5e395e0d5e0c5e0b5e0a61cf61d65e075e065dfc5dfb5e035e015e005dff5dfe,
  0x5e6c5e3d5e3b5e705e3a62c35e0762c85e355e1a5e3461a961c95e315e305e2f5e2e5e2d5e2c5e2b5e2a5e295e285e265df35e255e245e2364115e215e205e1f,
  0x5e5e5e5d5e5c5e5b5e5a5e585e1c5e575e565e555e545e535e525e515e505e4f5e4e5e4d5e4c5e4b5e4a5e495e485e475e465e455e445e435e425e415e405e3f,
  0x5e7e5e3361ab5ecb5e7a5e795e785e775e765e755e745e735e725e715e6f5e375e6e5e6d5e3c5e375e6a5e695e685e675e665e655e645e635e625e615e605e5f,
  0x5e9e5e9c5e7d5e9b5e9a60c560cc5e925e965e955e945e935e105e91643d5e8f5e8e5e8d5e8c5e8b5e8a5e895e885e875e865e855e845e835e825e815e805e7f,
  0x5ebe5ebd5ebc5ebb5eba5eaf5eb85eb65eb05eb55eb45eb35eb26227622e5ed55e7c5f225eac5eab5eaa5ea95ea85ea75ea65ea55ea45ea35ea25ea15ea05e9f,
  0x5ede5edd5edc5edb5eda5ed95ed85ed75ed65ed45e7b5ed35ed25ed15ed05ecf5ece5ecd5ecc5eca5e7b5ec95ec85ec75ec65ec55eb75e7b5ec25ec15ec05ebf,
  0x5efe5efd5efc5efa5ef95e9d61ac5ef75ef65ef55ef45ef35ef25ef15ef05eef5eee5eed5eec5eeb5eea5eae5ead5ee75ee65ee55ee45ee35ee25ee15ee05edf,
  0x5f1e5f4c5f4e5f1b5f1a5f195f165f175f155efb61ae5f135f125f115f105f0f5f0e5f0d5f0c5f0b5f0a5f095f085f075f065f055f045f035f025f015f005eff,
  0x5f3e5f3d5f3c5f3b5f3a5f395f385f375f365f345f185f335f325f315f305f2f5f2e5f2d5f2c5f2b5f2a5f295f285f275f265f255f245f235f215ead5f205f1f,
  0x5f5e5f5d5f5c5f5b5f5a5f595f585f575f565f555f795f7b5f525f515f505f4f5f4d5f1c5f1d5f1c5f4a5f495f485f475f465f455f445f435f425f415f405f3f,
  0x5f7e5f7d5f7c5f7a5f535f545f535f775f765f755f745f735f725f715f705f6f5f6e5f6d5f6c5f6b5f6a5f695f685f675f665f655f645f635f625f615f605f5f,
  0x61bc5f9d5f9c5f9b5f9a5f995f975f905f965f955f945f935f925f985f905f8f5f8e5f8d5f8c5f8b5f8a5f895f885f875f865f855f845f835f825f815f805f7f,
  0x60ee5fbd5fbc5fbb5fb95fb35fb85fb75fb65fb55fb45e9960d05fb15fb05faf5fae5fad5fac5fab5faa5fa95fa85fa75fa65fa55fa360fb5fa05fa15f9f5f35,
  0x5fde5fdd5fdc5fdb5fda5fd95fd85fd75fd65fd55fd45fd35fd25fd15fd05fcf5fce5fcd5fcc5fcb5fca5fc95fc85fc75fc65fc55fc45fc35fc25fc15fc05fbe,
  0x5ffe5ffd5ffc5ffb6013601a5ff85ff75ff65ff45ff15ff35ff25ff05fea5fef5fee5fed5fec5feb5fba60d65fe85fe75fe65fe55fe45fe35fe25fe15fcf5fdf,
  0x601e601d601c601b60195ff9601860176016601560145ffa5ff960116010600f600e600d600c600b600a60096008600760066005600460036002600160005fff,
  0x603b603d603c603a6034603960386037603660355ff560d7603260316030602f602e602d602c602b602a6029602860276026602560246023602260216020601f,
  0x605e605d605c605b605a6059605860576056605560546053605260516050604f604e604d604c604b604a60496048604760466044603f6043604260416040603e,
  0x607e607d607c607b607a60796078607760766075607460716072606c6070606f606e606d606b6068606a60696067606160666065606460636062604560d8605f,
  0x609e609c608f609b609960936098609760966095609a6093609260916090608e608d608b608c608a5fbf61bd608860876086608560846083608260816080607f,
  0x60be60bd60bc60bb60ba60b960b860b760b660b560b460b360b260b160b060ae609360ad60ac60af60a9609d60a860a760a660a560a460a360a260a160a0609f,
  0x60de60dd60dc60db60da60d960d55e975e975e9760d460d360d260d160cf5e9760ce60cd60cb5e9760ca60c960c860c760c660735e9760c360c260c160c060bf,
  0x60fe60fd60fc60fa5fa260f960f860f760f660f560f460f360f260f160f060ef5fa45fa260ec60eb60ea60e960e860e760e660e560e460e360e260e160e060df,
  0x6109611d611c611b611a611961116109611661156114611361126110610a610f610e610d610c610b611f612261086107610661056104610361026101610060ff,
  0x613e613d613c613b613a6139613861376136613561346133618361306193612f612d60aa61be612b612a6129612861276126612561246123612161096120611e,
  0x61316195615c615b615a6159615861576156615561546153615261516150614f614e614c6141614b614a61496148614761466145614461436142613f61406132,
  0x617e617d617c617b617a6179617861776176617561746173617261716170616f616d615e616c616b616a6169616861676166616561646163616261616160615f,
  0x619e619d619c61a2619a61996198619761966194612e6192612e61916190618f618e618d618c618b618a618961886187618661856184616e612e61816180617f,
  0x61bb5e325e325e3261ba61b961b861b761b661b561b461b361b261b161b061af61ad5e3261aa5e325e32614d5e3261a761a661a561a461a361a1619a61a0619f,
  0x61de61dd61dc61da5df061d961d861db61d55df061d461d361d261d161d05e095df061cd61cc61cb61ca61c85e3261c661bf61c561c461c361c261c161c761bf,
  0x61fe61fd61fc61fb61fa61f961f861f761f661f561f461f361f261f161f061ef61ee61ed61ec61eb61ea61e961e861e761e661e561e461e361e261e161e061df,
  0x621e621d621c621b621a62196218643e621662106214621362126211620f6209620e620d620c620b620a5eb16233620262066205620462035eb96201643f61ff,
  0x623e623d623c623b623a6239625e623762366235623462325e9862316230622f622b5e98622c6229622a6220622862265e98622562246223622262216208621f,
  0x625d6237625c625b625a625962586257626062646254625362a862a9624f624a624e6440624c624b622d6249644162476246624562446243624262416240623f,
  0x627e627d627c627b627a62796278626f627662756274631c627262b76270626e6252626d626c626b626a62f46303626762666265626362556262626162566255,
  0x629e629d629c629b6299628462a0629762966285628462936290628f6283628e641a5e3e628c628b628a62896288628762866295629a6273628262bb6280627f,
  0x62be62bd62ba62b6625162b962b862b4625162b562b362b162b262b062af62ae62ad629262ac62ab62aa62a762516251629162a562a462a362a262a1629f6284,
  0x62de62dd62dc62db62da62d962d862d762d662d562d462d362d262d162d062cf62ce62cd62cc62cb62ca62c962c75e3662c662c562c45e385e3662c162c062bf,
  0x62fe62fd62fc62fb62fa62f962f862f762f662f56269625062ed62f162ef627162ee627762ec644462ea62e962e862e762e662e562e462e362e262e162e062df,
  0x631e6316631b6271631a63196318631763146315644363136311630b6310630f630e630d6388638a630a630963086307630663056304630262506301630062ff,
  0x633e633d633c633b633a6339633863376336633563346333633263316330632e632c632d62bc641d632a6329632863276326632563246323632263216320631f,
  0x6389635a635c6359635563586353641b635663516354644563526350631d634f634d634c634b634a632f6349634863476346634563446343634263416340633f,
  0x637c6398637a637b6379636a637863776376637563b663b763726371635f636f636e636d636c636b63696368630c638f63666365636463636362636163606384,
  0x638b639d639c639b63d16399639762f363966395639463936392639f6390638e62f3638d638c638b638762f3635e62f3637e63856383635e638263816380637f,
  0x63be63e763bc63bb63ba63b963b863a5635b635b63b463b363b263b163b063af63ae63ad63ac63ab63aa63a963a763a263a6637463a463c063a063a164466386,
  0x63de63dd63dc63db63da63d963d863ee63d663d563cb63d363d263d0639963cf63ce63cd63cc63c963e863c763c863c663bf63c563c463c363c263c163a8635b,
  0x63fe63fd63fc63fb63fa63f963f863f763f663f563f463f363f263f163f063ef63ec63bc5a6863eb635d5a6863e663bc63bc63e563e463e363e263e163e063df,
  0x641e641c5a6864185a685a6859a264495a6864156414640f59a259a25a685a68640c5a685a6863d45a6864085a686407640664056404640364026401640063ff,
  0x59a259a259a2643b643859a259a2643159a259a259a259a259a259a26430642f642e5a9f642c6e40642a64296428642764266425642464236422642164205aa7,
  0x645e645d6448645b645a72b672b76457645680566454645364526e8c6e9f644f644e727f7281644b644a803659a26447644259a259a259a259a2643c59a259a2,
  0x65536537642d647b64516479647864776476647564746473647264716470646f646e646d646c646b6e446e47646864676e41655d646364625a796afa6460645f,
  0x649e649d649c649b64996481648264816496649564946493649264916490648f648e648d648b6466648a64896488648765596485648464836498649a6480647f,
  0x64be64bc64b364bb64ba648c657164b764b664b5655764a6655b64b164b064af64ae64ad64ac64ab64aa64a964a864a7655564a464a3647e64a264a164a0649f,
  0x64b964dc64db64da64d964d864bd64d764d664d5656164d364d264d164d064cf64ce64cd64cc64cb64ca64c964e164c764c664c564c464c364c264c164c064bf,
  0x64fe64f464f364fb64fa64f964f864f764f664f5651964fd64f164e864f0656064ee64ed64ec64eb64ea64e964dd656564e364e564e464e264df64e064b764de,
  0x651e651c651b651a6516651864f36517651565126514651365116510650f650e650d64f26562650b650a650965086507650665056504650365026501652b64ff,
  0x653e653d653c646965ad653965386e42647d6535653465326465656b6530652f652e651d647d652a64f36529652865276526652565246523652265216520651f,
  0x6586655c6465655a647d655864656556647d6554647d6552647d65cd6550654f654e654d6e43654b654a6549656f6547654665446543656c654265416540653f,
  0x657e657d655f655e657a6579657865776576657565746573657265706465653b654365e0656a6543647d65696568656765666564647d6563657c647d6465647d,
  0x659e659d659c65df6599659065986597659665956594659365d96591658f658e658d656e658c658b658a658965cf65876585655e6584658365826581658065b3,
  0x65be65bd65bc65bb65ba65b965b865b765b665b565b465b2657e65b165c265c765ae65a0653a65ab65aa65a965a865a765a665a565a465a365a265a1659f659a,
  0x653a661165dc65db655165d8653a65d765d565d365d465d265d164646adc65ce653a65cc653a65cb65ca65c965c865c665af65e465c465c365b065af65c065bf,
  0x65fe65fd65fc65fb65f965f865ea65f76743674965f465f36e4665f165f065ef65ee65ed65ec65eb65e365e96714671665e665e56e45653a65e265e165de653a,
  0x661d661c6604663366446618661765e867226615661466136612661065dc660f660e660d660c660b660a6609660866076606662b664b6afc66026601660065ff,
  0x663e663d663c663b663a6639663866226afd66356634661b661a66316630662f662e662d662c660565d666296628662766266625662466236621661f6620661e,
  0x665e665d665c665b665a665966586656665566546652665366516650664f6637664e664d664c664a65d66649664866476646664566f7661a66ff66416640663f,
  0x667e667d667c667b667a6679667866776675666e66746673667266716670666f66436705666c666b666a6669666866676666666566646663666266616660665f,
  0x66b0669d669c669b669a669966986697669566946619672c669266916690668f668e668c658c668b668a6689668866876686668566846683668266816680667f,
  0x66be66bd66bc66bb66ba66b966b866b766b666b566b466b366b266b166af669e66ae669f669e66ab66aa66a966a866a766a666a566a466a366a1669666a066ad,
  0x66de66dd66db66d666da66d966d866d766d566ce66d466d366d266d166d066cf6676670866cc66cb66ca66c966c866c766c666c566c466c366c266c166c066bf,
  0x664266fd66fc66fb66fa66f966f866dc664266f566f466f366f266f166f066ef66ee66ed66ec66eb66ea66e966e866e766e666e566e466e366e266e166e066df,
  0x671e671d671c671b671a6719671866576b0165e766a265e7671267116710670f670e670d670c670b670a670967076642670667046642670367026701670066fe,
  0x6775673d673c673b6765673967366737673567346732673367316730672f67176725672d672b65e7672a67296728672767266e49672465fa672165e76720671f,
  0x675e675d675c67a9675a67596758678d67566755675467a7675267516750674f674e674d674c674b674a674865f5674767a667b2674465f665f567416740673f,
  0x677e67796745677b677a677867776776677267736739676767716770676e676f674667b0676c676b67686767675e677467666764673967ae6762676167606769,
  0x679e68326836679b679a6e4a67986797679667956793672c679267916790678f678e678c6756678b678a6789678867b46786678567846783678267816780677f,
  0x67be67bd67bc67bb67ba67b967b867b767b667b567b3674567b16745673867456ae3674567ac67ab67aa67a8674567a467456745680c67a367a06813679f672e,
  0x6893689967dc67db6e4c67d967d867d767d667d567d367d067d267d167ce67cf67cd67cc67ca67cb67c967c867c767af67c667c567c467c367c267c167c067bf,
  0x67fe67fd67fc67fb67fa67f967f867f767f667f567f467f367f267f167f067ef67ee67ed67ec67eb67ea67e967e867e567e667e367e467e167e267e067a567df,
  0x681e681c6819681b681a679d683a6817681668156814681267a168116810680f680e680d67a267a1680a680968086807680668056804680368026801680067ff,
  0x683e683d683b6833683c679c683868376835679c68346833681d679c6830682f682e682d682c682b682a6829682868276826682568246823682268216820681f,
  0x685e685d685c685b685968536858685768566855685468526b03685167d4684f684e684d6884684b684a68496872684768466844679c6845684268416840683f,
  0x687e687d687c687b687a6e4d68776874687668756896687368716847686e686a686d686c686b685a67de689d68686867686668656864686368626861686067e7,
  0x6877688867dd689b689a689867dd68976894686d688e687067dd68916890688f68786b05688c688b688a6889688768866883688568c7684b688068d5687f689f,
  0x68bc68f568bb68b468ba6943695368b768b66e4e68b368b268af68b168b068ad68ae68ac68ab694668aa68e2694968a6689568a568a468a368a268a168a0689e,
  0x68de68dd691468d868da68d968d768d468d668d3688168d168d268d068c568cf68ce68cd68cc68cb6e4f68c968c86882688168c368c468c268c068c168e168bf,
  0x68fe68fd68fc6923693168f968f868f668f068f468bd68f368b9695568ef6b0768ee68b568ec68eb68ea692168e868e768e668e568e468e368be68a668bd68df,
  0x691e691d691c691b691a69426917691669156913691168d86912690f6910690e690d690b690c690a6909690868f769076906690569376903690168f269006929,
  0x693e693d693c693b693a69636938693668fe6935693469336932693068fa692f692e692d692c695e692a692868fe692769506925692468fb68fa692068e8691f,
  0x695d6925695c695b695a6a356a0469576956695468b8695268b86951694f6925694e694d694c694b694a694868a7694768a968a76a3a690268b869166940693f,
  0x697e697d697c697b697a6979697869776975696869746973697269716970696f696e696d696c696a6945696969596a0e6966696569646a0969386a0a6960695f,
  0x699e699d699c699b69766a10699869976996699569946993699269916990698f698e698d698c698b698a6989698869876986698569846983698269816980697f,
  0x69be69bd69bc69ba69b069b969b869b769b669b569b469b369bb69a869b069af69ae69ad69ac69ab69aa69a969a7699a69a669a569a469a369a269a169c869d6,
  0x69de69dd69dc69db69da69d969d869d769d5699f69d469d369d269d169d069cf69ce69cd69cc69cb69ca69c969a0699f69c669c569c469c369c269c169c069bf,
  0x69fe69fd69fc69fb69fa69f969f869f769b2695869f469f369f269f169f069ef69ee69ed69ec69eb69e969df69e869e769e669e569e469e369e269e169ea69df,
  0x6a1e6a1b6a1c6a196a1a6a1868db6a176a626a646a146a136e506a11696b6958694469586a0c6a0b6962696169616a076a066a056a0369586a026a016a0069ff,
  0x6a3d6a3b6a3c6a386a3969446a276a2a6a366a3469446a336a326a316a306a2f6a2e6a2d6a2c6a2b6a296a286a246a6c6a206a2569196a236a166a216a1f6b08,
  0x6a596a5d6a5c6a866a5a6a586a566a576a546a556a466a536a516a4a6a506a766a876a4d6a4c6e516a496a486a476a736a456a446a416a436a426a3f6a406a3e,
  0x6a7e6a7d6a7c6a7b6ad46ae16a726a776a4f6a4e6a5e6a4b6a156b096a706a6f6a6e6a6d6a6b6a156a6a6a696a686a676a666a656a636a156a526a156a606a5f,
  0x6cde6cdf6a9b6a9a6a996a986e526a966b866ac76ad26a916a926a906a8f6cd96a8e6a8c6cda6a8a6a796a896a886a856a4e6a5a6a846a836a826a816a806a7f,
  0x6abe6abd6abc6abb6aba6ab96ab86ab76ab66ab56ab46ab36aac6b3b6ab06aaf6aae6aad6aab6aa96aaa6aa76aa86aa56aa66aa46a9c6aa36aa26b5a6aa06a9f,
  0x6ade6ab26b5b5a786ada6ad96ad86ad76ad66ad56a7a6a786ad16a946ad06acf6ace6acd6acc6acb6aca6ac96ac86a956a946ac56ac46ac36ac26ac16ac06abf,
  0x6afe6afb5a785a786af95a786af86af45a786b665a786af36aea6af16af06aef6aee6aed6aec6aeb6ae96b636ae86ae66ae46ae56b106ae25a786add6a786adf,
  0x6b006b1d6b1c6b1b6b1a6e1e6e286b166b146b156b126b136b066b116b0f6ae46b0e6e1f6dff6b0b6b0a6e545a785a785a786b045a786b025a786aff5a786af6,
  0x6b3e6b3d6b686b3a6aa16b396b386b376b366b356b346b336b326b296aa16b2f6b2e6b2d6b466b2b6b2a6b276b286b206b266b256b246b236b646b216b176b1f,
  0x6ba56b5d6b5c6b696aa16aa16b836b576b566b556b546b536b526b516b506b4f6a976a936b4c6b4b6b4a6b496b486b476b456b256b446b436b426b416b406b3f,
  0x6b7e6b7d6b7c6b7b6b7a6b596b586b776b766b756baa6b736b726b716b706b6f6b6e6b6d6b966b6b6b6a6b676aa16aa16b656aa16b626aa16aa16b616b606ba1,
  0x6b6b6b9d6b9c6bd16b9a6b996b986b976b956b6b6b946b936b926b916b906b8f6b9f6b8d6b8c6b8b6b8a6b896b886b876b856a936b846b826b586b816b806b7f,
  0x6bbe6bbd6bbb6bad6bba6a9e6bb86ce96bb66bb56bb46bbc6bb26bb06b5e6baf6bae6bad6bac6bab6bb16b736ba86ba76ba66ba46b5e6ba36ba26b5f6b5e6b9e,
  0x6bde6bdd6bdc6bdb6ccd6bd96bd86bd76bd66bd56bd46bd36bd26bd06b9a6bcf6bce6bcd6bcc6bcb6bca6bc96bc86bc76bc66bc56bc46bc36bc26ccb6ccf6bbf,
  0x6bfe6cad6cb26bfb6a8d6bf96ce46bf76bf66bf56bf46bf36bf26bf16bf06bef6bee6bed6bec6beb6bea6be86be76be66bc16be56be46be36be26be16be06bdf,
  0x6c1e6c1d6c1c6c1a6c116c196c186c176c166c156c146c136c126c5a6c696c0f6c0e6c0d6c0c6c0b6c0a6c096c086c076c066c056c046c036c026c016c006bff,
  0x6c3e6c3d6c3c6c3b6c3a6c396c386c376c366c356c346c336c326c316c306c2f6c2e6c2d6c2c6c2b6c2a6c286c1b6c276c686c256c246c236c226c216c206c1f,
  0x6c5e6c5d6c5c6c5b6c596c106c586c576c566c556c546c536c526c516c296c106c4e6c4d6c4c6c4b6c4a6c496c486c476c466c456c446c436c426c416c406c3f,
  0x6c7e6c7d6c7c6c7b6c7a6c796c786c776c766c756c746c736c726c716c706c6f6c886c8c6c6c6c6b6cd86c676c106c106c666c656c646be96cdd6c616c606c5f,
  0x6c9e6c9d6c9c6c9b6c996c6d6c986c9a6c956c8d6c946c936c926c916c906c8f6c8e6c8a6c8b6c6d6c896c876c636c6d6c6e6c856c846c836c826c816c806c7f,
  0x6cbe6cbd6cbc6cbb6cba6cb96cb86cb76cb66cb56cb46cb36cb16bfc6cb06caf6cae6bfd6bfc6cab6caa6ca96ca86ca76ca66c966bc06ca36ca26ca16ca06c9f,
  0x6a9d6a9d6bc06d996dca6a8b6a8b6bc06cd66cd56cd46cd36cd06d986cc76ccc6bc06cc46bc06cca6bc06cea6cc86bb96cc66cec6cc26cc36ce76bfa6cc06cbf,
  0x6cf46cfd6cfc6cfb6cfa6cf96cf86cf66cef6cff6d036cf36cf26dcb6cf06ceb6cee6ced6dac6a9d6ce86a9d6a9d6d9a6a8b6ce56ce36a8b6cdc6ce16ce06cd2,
  0x6d1e6d1d6d1c6d1b6d1a6d196d186d166d0f6d156d146d136d3b6d116d106d0c6d0e6d0d6dcf6dcc6d0a6d096d086d076d066d056d046d026cf46d016d006cf5,
  0x6d3d6d336d3c6d3a6d116d396d386d376d366d356d3e6d336d326d316d306d2f6d2e6d2d6d2c6d2b6d2a6d296d286d276d266d256d246d236d226cdb6d176dd8,
  0x6d5e6d5d6d5c6d516d416d596d576d506d566d556d546d536d526d5b6d616d4f6d4e6dd76d4c6d4b6d496d206d486d476d466d456d446d436d426d3f6d406d21,
  0x6d7e6d7d6d7c6d7b6d7a6d796d786d776d766d756dd46d736d726d716d706d6f6d6e6d6d6d6c6d6b6d6a6d696d686d676d666d656dd36d636d606d586d416d5f,
  0x6d4a6d9d6d9c6d9b6d976cd16cd16cd16d8b6d956d946d936dae6d916d906d8f6d8e6d8d6d8c6d886d8a6d896d856dd56d866d846d826d836d806d816d626d7f,
  0x6dbe6dbd6dbc6dbb6dba6db96de26db76db66db56db46db36db26db16de16de56dad6d8d6dab6cd16dda6da96da86da76da66da56da46da36da16cd16d9f6cce,
  0x6dde6ddd6e116d996dd96cd16dd66cce6cd16dd16cd16cd16cd16d986dd06dce6cd16dcd6dc96cd16cd16cce6dc86dc76dc66dc56deb6dc36dc26dc16df66dbf,
  0x6b0c6def6dfc6dfb6b1e6df96df86df76dfe6dbf6df46df36df26df06daf6def6dee6ded6df16dea6db76de96de76d9a6de66de46daf6de36db06db76daf6ddf,
  0x6b0c6b186e1c6e1b6e19646a6e0e647c6e166e156e146e136e126e106dd96e0f6e0c6e0d6e0a6e0b6e096e036e086e076e066e056e046e576e026e016e006b0d,
  0x5a9e5a9e6e1a6e3b6e3a6e396e386e376e366e356e346e336e326e316e306e2f6e2e6e2d6e2c6b0c6e2a6e296e276b186e266e256e246e236e566e216e206b19,
  0x736d6e5d6e5c78bc78bd6e596e5880375a9e6e216e535a9e6e4b5a9e5a9e5a9e5a9e5a9e5a9e5a9e64595a9e5a9e6e3d645c5a9e5a9e645c5a9e5a9e5a9e5a9e,
  0x78e078c06e7c6e786e7a6e79733e80576e76644d6e746e736e726e716e706e6f6e6e6e556e6c72b86e6a6e696e686e676e666e656e646e636e626e616e60735e,
  0x64506e9d6e9c6e9b6e9a6e996e986e976e966e956e946e936e926e916e906ed86e8d6edc728464506e8a6e896e886e876e866e856e846e837370737f6e806e7f,
  0x6ebe6ebd6ebc6ebb6eb96eb66eb86eb76e8e6ef06eb46eb36eb26eb16eb06eaf6eae6ead6eac6eab6eaa6ea96ea86ea76ea66ec76ecb6e6d6ea26ea172b96e9e,
  0x6ea46edd6edb6e776edf6ed96eba6e776ed66ed56ed46ed36ed26ed16ed06ecf6ece6ecd6ecc6eca6ea46ec96ec86ea56ea46ec56ec46ec36ec26ec16ec06ebf,
  0x6efe6efd6efc6efb6efa6ef96ef86ef76ef66eef6ef46ef36ef26ef172bb6e776eee6ee46eec6eeb6eea6ee96ee86ee76ee66ee56ea36ee36ee26ee172ba6ede,
  0x6f696f1c6f126f1b70c170c26f186f1772be6f156f136e136ef56f11702270266f0e6f0d72bd6f0b6f0a6f086f066f076f056f046e8f72866f026f016f006eff,
  0x6f3e6f3d6f3c6f3b6f3a6f396f386f376f366f356f5e6f606f316f306f2e6f2f6fb46f2c6fb872666f2a6f296f286f276f266f256f246f236f226f216f206f67,
  0x6f346f326f5c6f5b6f5a6f586f266f576f566f556f546f536f526f516f506f4f6f4e6f4d6f596f4b6f4a6f496f486f476f466f456f446f436f426f416f406f3f,
  0x6f7e6f7d6f7c6faa6f7a6f796f786f776f766f756f746f736f726f716f706fa76f6e6f6d6f6c6f6b6f6a6f686f1d6f1f6f1d6f656f646f636f626f616f5f6f32,
  0x6f9e6f9d6f9c6f9b6f9a6f996f986f976f966f956f946f936f926f916f906f8f6f8e6f8d6fa56fb76f8a6f896f886f876f866f856fd56f806fe06f816f107028,
  0x6fbe6fbd6fbc6fbb6fba6fb96fe26f096f8b6fed6fb36f096f2d6fb16fb06faf6fae6fad6fac6fab6fa96f6e6fa86fa66f6e6f8c6f8b6fa36fa26fa16fa06f9f,
  0x6fde6fdd6fdc6fdb6fda6fd96fd86fd76fd66f836f826fd36fd26fd16fd06fcf6fce6fcd6fcc6fcb6fca6fc96fc86fc76fc66fc56fc46fc36fc26fc16fc06fbf,
  0x6ffb6ffd6ffc6f84702c6ff96ff86ff76ff66ff56ff46ff36ff26ff16ff06fef6fee6fec6fb56feb6fea6fe96fe86fe76fe66fe56fe46fe36fb66fb56fdf6f82,
  0x701e701d701c701b701a70197018701770166f33728d7013701270117010700e6ffc700d700c700b700a70097008700f7006700570047003700270006fff6ffe,
  0x703e703d703c703b703a7039703870377034703570337032703070317287702e702d7015702b6f0f702a702970276f0f70256f0f7024702370016f0f7020701f,
  0x7055705d705c705b705a70597058705770567043709a7053705270517050704f704e704d704a704b70496f1e70487112711d7045704472c4709970417040703f,
  0x707e707d707c707b707a707970787077707670737074706a707270717070706f706e706d706c706b705f70a8706870677066706570647063706270617060705e,
  0x709e709d709c709b7098704270427097709670957094709370927091709070757042708d708c708b708a7089708870877086708570847083708270817080707f,
  0x70be70bd70d970bb70ba70b970b870b770b670b570da70b370b270b170d770af70ae70ad70ac70ab70aa70a970a7704270a670a56f1a70a370c370a170a0709f,
  0x70de710470dc70db704770b370af70d270af712070d470d370d070d170cf704c70ce70cd70cc70cb70ca72c570c870c770c670c570c470a46f196f196f1970bf,
  0x70fe710870fc70fb70fa70f970f77270703670f570f470f370f270f170f070ef70ee70ed70ec70eb710570e970e870e770e670e570e470e370e270e070d670df,
  0x7119701d7046711b711a71177118711671157113711470e17111704670f8710f710e710d710c710b710a7109710770dc7106710370dc70dc71027135710070ff,
  0x713e713d713c713b713a7139711f7290713671347100713371327131712e712f7129712d712c712b712770297128712670d871257235723d7122712172c77046,
  0x7159721b721e715b7124715271587156715571537154726b715172447142714f714c7272714b7145714a72a472a97147714672c871447143713071387140713f,
  0x717e717d717c717b717a7179717871777176717571747173719b71717170716f716e716d716c716b716a7169716871677166716571647163716271617160715e,
  0x719e719d719c71a87171719971987197719671957194719371bc71917190718f718e718d718c718b718a718971887187718671857184718371a371817180717f,
  0x71be71bd71bb719171ba71b971b871e171b671b571b471b371b271b171b071af71ae71ac70ac71ab71aa71a77171717171a671a571a471a2717171a171a071a9,
  0x71de71dd71dc71db71d971d271d871d771d671d571d471d3722771d171ce71cf71c4722a71cc71cb71ca71c971c871c771c671c571c371c171c2715d721f71bf,
  0x71fe71fd71fc71fb71fa71f971f871f771f671f571f471f271e971f171f071ef71ee71ed71ec71eb71ea715f729171e771e671e571e471e371e271e071b671df,
  0x715c715c721c7217715c721972187216721472157212720c72107211720f720a720e720d7206720b720872097207722d7294720571da72a5720171f3720071ff,
  0x723e723c7123723b723a7239723872377236715a71237233723272317230722f722c715c715c722b7229715c72287226715c72257224722372227221722e721d,
  0x725e728a726f7258715772597257724e725672c372c97253725272cc7250724f72137271724c724b724a7249724872477246724572437123724272417240723f,
  0x644c72b5727c727b727a7279727872777276727572747273725d714d644c644c725c726d726c714e714d7269726872677265644c726272637261725f7260725a,
  0x729e729d729c729b729a72997298729772967295720472027292728f644c644c728e728c644c728b7289725c72887285644c644c7282644c727e7280644c7149,
  0x72bc645864587264645864586458645864586458714872b372b272b172b072af72ae72ad72ac72ab72aa72a8714872a772a672837202714872a272a172a0729f,
  0x72de72dd72dc7300730672d972d872d772d672d572d472d372d272d172d072cf72ce72cd72cb645872ca72c672546458645872c2645864587254725572c072bf,
  0x72fe72fd72fc72fb72fa72f972f872f772f672f572f472f372f272f172f072ef72ee72ed72ec72eb72ea72e972e872e772e672e572e472e372e272e172e072df,
  0x731e731d731c731b731a7319731873177316731573147313731273117310730f730e730d730c730b730a730973087307730572da730473037302730172db72da,
  0x6e8b6e6b733c733b733a733973387337733673357334733373327331734c7350732e732d7cba7c9a732a7329805873277326732573247323732273217320731f,
  0x73486e5e735c735b735a7359735873577356735573547353735273517a06732f7a0c734d7330732f734a7349733d734773466e5f73447343734273417340733f,
  0x6e81737d737c737b737a7379737873967376737573747373737273716e826e81736e736c6e5e736b736a7369736873677366736573646e7e78e173617360735f,
  0x739e739d738378e2739a739973987397739573617394739373ab73ad7390738f738e738d738c6e5b738a78be738873877386738573847382736373817380737e,
  0x73be73bb73bc739c73b973a173a273a173b673b573b473b373b273b173b073af73ae73ac73917392739173a973a873a773a673a573a473a373b873ba73a0739f,
  0x73de73dd73dc73db73da73eb73fb78e373d673d573d473d373d273d173d073cf73ce73cd73cc73e673f6738b73c873c778bf73c573c473c373c273c173c073bf,
  0x73fe73fd73fc73fa73bd73f973f873f773f573ca73f473f373f2742a742b73ef73d878e573ec73ea73bd73d973e873e773cb73ca73e473e373e273e173e073df,
  0x741e741d741c741b73f174197431741774167415741474137412740d7452745b740e73ee740c740b740a74097408740774067405740473c974027401740078c1,
  0x743d6e6b743c743b743a74397438741178e67435743474337432743073f0742f742e742d742c741a73f073f0742874277426742574247423742274217420741f,
  0x745e745d78c8745a740f7459745874577437744e745474537410740f7450744f744d744c7403744b744a744978c274477446744574447443744173417440743f,
  0x747e747d747c747b747a74797478747774767475747474737472745c78c7746f746e746d746c746b746a7469746874677466746574647461746274607456745f,
  0x749d7497749e749b749a74997498749774967495749474937492749174a974aa748e748d78e7748b748a748974887486748074857484748374827481747178eb,
  0x74be74bc74b674bb74ba74b974b874b774a778ec74b474b374b274b174b074af74ae74ad74ac74ab7490748f748f74a474cb74ce74a3749f74a274e074f17487,
  0x74de74da74dc74db74d974d574d87509751474bd74d373d374d274d174d074cf74cd74a574cc74a674a574c974c874c774c674c574c474c374ec74c174c074bf,
  0x74fd74f874fc74fb74fa74f974f674f7758174f0758674f374f278c974a074ef746374ed74eb74c174ea74e974e874e774e674e574e474e374a173e174dd74a0,
  0x75527560751c751b751875197513751775167515751174d6751275b674fe75bf750e750d78ca750b750a74d774d675017506750575047503750274e178ee74ff,
  0x753e753d753c753b7539752575387537753675357534753a753275317530752f752e752b752c7528752a752975257527752675247520752375c075c97508751f,
  0x755e755d755c755b755a7559755875577556755575547553751e751d7550754f754e754d754c754b754a7549754875477545753f75467543754275417540753f,
  0x757e757d757b747b757a7579757875777576757575747573757275717570756f756e756c746c756b756a756975687567756675657564756375627561755f751d,
  0x759e78cb759c759b759a7599759875977596759575947593759275917590758f758e75a2758c758b758a758975887587758574f475847583758274f574f4757f,
  0x750f75bd75bc75bb75b975b375b875b77510750f75b475b278ef75b175b0752d75ae75ad75a975ab75aa75a475a875a775a675a5751a75a377bf758c77df759f,
  0x75de75da75dc75db75d275d975d875d6751475d577e477e775ba75d175d075cf75ce75cd75cc75cb75ca75c8752175ac75c675c575c475c375c275c175227521,
  0x75fe75fd75fc75fb75fa75f975f875f775f675f575f475f375f275ed75f075ef75ee75e875ec75eb75ea75a177c275e775e5763175e475e375e278cd75df75dd,
  0x761e761d7617761b761a76197618761676107615761476137612761175e67633760e760d760c760b760a760775e976017606760576047603760275e178f175ff,
  0x763e763d763c763b763a763976387637763676357634763275e0762e75e0762f762d762b762c7628762975e076257817781a762476207623784f78557608761f,
  0x765e765d765c765b765a765976587657765676557654765376527651764f764d764e760977e2764b764a7649764876477646764576447643764276417640763f,
  0x767e767d767c767b767a7679767876777676767476727673766d77c37670766f766e766c7650766b766a7669766876677666766576647663766276617660765f,
  0x769e769d769c769b76997697769875d477eb769476927693769176757690768f768e768d768c768b768a7689768876877686768576847683768276817680767f,
  0x76bc76bd769577ee76ba76b976b876b776b676b576b476b376b276b176b076af76ae76ad76ac76ab76aa76a976a876a776a676a576a476a376a276a176a0769f,
  0x76dc76dd76db76c076da76d976d876d776d676d576d476d376d276d176d076cf76ce76cd76cc76cb76ca76c976c876c776c676c576c476c376c276c176be76bf,
  0x76fe76fd76fc76fb76fa76f976f876f776f676f576f476f376f276f176ef76ec76ee76ed76eb76e976ea769a77ef76e776e676e576e476e376e276e176e076de,
  0x771e771d771b7704771a7719771877177705770477147713771277117710770f770e770d770c770b770a77097708770777067716771c770377027701770076ff,
  0x773e773d773a773b7738773976df77f177357732773477337731772e7730772f772d772b772c76f077f67729772877277726772577247723772277217720771f,
  0x775e775d775c775a775877597757773c7756775577547753775277517750774f774e774d774c774b774a774977487747774677457744774377427769776f773f,
  0x777e777d777c777b777a7779777877777776777577747773777277717770776e7740776d776c776b776a774177407766775b776577647763776277617760775f,
  0x779d779a77c9779b779977977798773677f8779577927793776777d27790778f778e778d778c778b778a7789778877877786778577847783778277817780777f,
  0x75a077b577bc77bb77ba77b977b877b777b677b477b277b377b1779677b077cd77ae77ad77ac77ab77aa77a877a277a777a677a577a477a377c5779e77a0779f,
  0x75a077dd77dc77db77da77d977d877d777d677d577d477d377d175a077d077cf77cc77c7779b77cb77ca77ce779b77c777c677c4779377c175a075a077c077be,
  0x77fe77fd77fc77fb77fa77f977f775d377f575d377f477f377f277f075a077ed75d375a077ec77ea75d377e977e877e675d377e577e375d377a975a077e077de,
  0x781e781d781c781b78197626781876277626781578147813781278117810780f7838780c7806780b780a780978087807763078f27804780378027801780077ff,
  0x783e783c7860783b783a783978ce780c7835783378f3783276227831782d782f782e782a782c782b78297825782878277826780d782475f1782278217820781f,
  0x785e785d785c78cf784a785978587857785678547621785378527851785078437621784d784c784b784978487844784778467845783f7842783d784178407836,
  0x787e787d787c787b787a7879786e78777876787578747873787278717870786f7867786d786b7865786a786978687862786678ad78f478b278377861785f7621,
  0x789e789c7895789b789a789978d0789778967894789278937891788f7890788c788e788d7883788b788a78887884788778b978c5786c78bb788278817864787f,
  0x6e5a6e5a6e5a6e5a786378ac788578b778b678b578df78b378b1786378b078af78ae78897863788678aa78a878a478a778a678a5789f78a378a278a178a0789d,
  0x78b378dd78dc78db78da78d978d878d778d678d578d478d378d278f678cc6e5a6e5a6e5a6e5a78c66e5a6e5a6e5a6e5a6e7d78c4788578c378ba6e5a6e5a6e7d,
  0x7ca77ca878fc78fb803878f978f878f778f56e7d78f06e7d6e7d6e7d6e7d78ed6e7d6e7d78ea6e7d6e7d78e978e878e46e7d6e7d6e7d78de6e7d6e7d6e7d6e7d,
  0x791e791d791c791b790f7919791879177916791579147913791279117910735d790e790d7c9b790b7cbc790979087907790679057904790379027901790078ff,
  0x793e793d793c793a79357939793879377936734f7a0f793379327931791a792f792e792d792c792a790c792978fe79277c897925792479237ab079217920791f,
  0x795e795d795c795b795a795979587957795679557954795279507951794f794a794e794d794c794b793b7a11794879477946794579447943794279417940793f,
  0x797d7953797c797b797a7979797e7977797679687953795379717970796f796d796e796c7967796b796a7969797479757a13796579647963796279617960795f,
  0x7970799d799c799a7a15799f799879977996799579947993799279917990798f732c792b798c798b798a7989798879877986798579847983798279817980797f,
  0x79ac79bd79bc79bb79ba79b979b879b779b679b579b479b379b279b179b079af79bf798e79cb79ab79aa7a1479a87a1c78a67a2679a379a179a279a0799b799e,
  0x79de79dd79dc79db79da79d979d879d779d679d579d479d379d279d179d079cf79ce79cd79cc79ca79ac79c979c879c779c679c579c378c379e579f379c079ad,
  0x79fe79fd79fc79fb79fa79f979f879f779f679f579f479f279c179f179f079ef79ee79ed79ec79eb79ea79e979e879e779e679c279c179e379e279e17a1679df,
  0x7a1e7a1d79a679a47a1a7a197a187a177a1279df734e734e734e7a10734e7a0e734e7a0d7a0b734e7a0a7a097a087a0779a9734e7a047a037a027a377a0079ff,
  0x7a3e7a3d7a3c7a3b7a3a7a4a7a507a367a007a357a347a337a327a317a307a2f7a2e7a2d7a2c7a2b7a2a7a297a287a277a2579a47a247a237a227a217a207a1f,
  0x80397a5d7a5c7a5b7a5a7a597a587a577a567a557a547a537a527a517a4f7a387a4e7a4d7a4c7a4b7a397a387a487a477a467a457a447a437a427a417a407a3f,
  0x7a747a7d7a7c79287ca97a797a7879ae7a767c9d79227a7380597a717a707a6f7a6e7a6d7a6c7a6b7a6a7a697a687a677a667a657a647a637d6d7d6f7a607a5f,
  0x7a9e7a9d7a9c7a9b7a977a997a7b7a967a957a777a7e7a927a917a807d7b7a8f7a8e7a8d7a8c7a8b7a8a7a897a887a877a867a857a847a837a827a817d787d7a,
  0x7abe7abd7abc7abb7aba7ab97ab87ab77ab57ab47a987ab37cbe7ab17aaf79227aae7aad7aac7aab7aaa7aa97aa87aa77aa67aa57a9a7caa7aa27aa17aa07a9f,
  0x7ade7add7b167cab7ada7ad97ad87ae37ad47ad57b277ad27b2e7ad17ad07acf7ace7acd7acc7acb7aca7ac97ac87ac77ac67ac57cbd7b237ac27aa47ac07abf,
  0x7b347af97afc7afb7afa7adc7af87af77af67af57af47af37b107af17af07aef7aee7aed7aec7aeb7aea7ae97ae87ae77b0d7ae57ad67ae27ab17ae17cbf7adf,
  0x7b1e7b1d7b1c7b1b7b1a7baa7bbc7b177ac47ac37b147b137b127b117b0f7ae57b0e7b0c7ae57b0b7b0a7b097b087b077b027aff7b047b037b017b007ae47ad3,
  0x7b3e7b3d7b297b287b3a7b397b197bc17b367b357b337ab67b327b317b307b2f7b2d7ab67b2c7b2b7b2a7b3c7b4e7b067ab67b257b247b227ac37b217b207b1f,
  0x7b517ba67b5c7b5b7b5a7b597b587b577b567b557b547b537b527b957b9f7b4f7b4d7b287b4c7b4b7b497b387b487b477b467b457b447b437b427b417b407b69,
  0x7b7e7b7d7b7c7b7b7b797b707b787b777b767b757b747b737b727b717b687ba77b6e7b6d7b6c7b6b7b6a7b677b3a7b5e7b667b657b647b637b627b617b607b5f,
  0x7b507b9d7b9c7b9b7b9a7b997b987b977b967b817b507b937b927b917b907b8f7b8e7b8d7b8c7b8b7b8a7b897b887b877b867b857b847b837b827b807b7a7b7f,
  0x7bbe7bbd7bbb7b187bba7bb97bb87bb77bb67bb57bb47bb37bb27bb17bb07baf7bae7bad7bac7bab7b4a7b187ba87ba57b507b507ba47ba37ba27ba17ba07b9e,
  0x7bde7bdd7bdc7bdb7cc57bd87b057bd77cc87bd57bd47afd7cb47bd17bd07bcf7bce7bcd7bcc7bcb7bca7bc97bc87bc77bc67bc57bc47bc37bc27bc07b187bbf,
  0x7bfe7bfd7bf87bfb7bfa7bf97bf77bf67bda7bf07bf47bf37bf27bf17bd37bef7bee7bed7bec7beb7cc77be97be87be77be67be57be47be37be27be17be07bdf,
  0x7c1e7c1d7c1c7c1b7c1a7c197c177c167cc97c157ccc7c137c047c117c107c0f7c0d7bff7c0c7bf57cb87c097c087c077c0e7c057c037c027c017bfc7c007bff,
  0x7c3e7c3d7c3c7c3b7c347c397c387c377c467c2d7c587c337c327c317c307c2f7c2e7c287c2c7c2b7c2a7c297c0b7ccb7c267c257c247c237c227c217c207c1f,
  0x7c5e7c5d7c5c7c5b7c5a7c557c577c187c567cd37c547c537c527c517c6f7c7d7c4e7c357c4c7c4b7c4a7c497c367cbb7c457c187c417c437c427c407c3f7c3a,
  0x7c917c757c4f7c5b7c7a7c797c787c767c737c597c747c727c6a7c717c707c6e7c4f7c6d7c6c7c6b7c657c697c687c677c667c487c507c637c627c617c7c7c5f,
  0x7c9e7c9c732b7c99732b732b7c987c977c887c957c947c937c927c907c707c8f7c8e7c8d7c8c7c8b7c8a7c7778fd7c877c857c827c847c837c817c807c7b7c7f,
  0x732b732b732b732b78fd732b7cb778fd7cb67cb57cb378fd7cb27cb17cb07caf7cae7d0b7d107ca678fd78fd78fd78fd78fd7ca57d157d1a7ca27ca17ca07c9f,
  0x7cde7cdd7cdc7cf47cfc7cd97cd87ee67ee77cd57cd4805a732b7cd17cd07ccf7cce7ccd7cca732b732b7cc6732b732b732b7cc3732b7cc27a627d707cc07cb9,
  0x7cfe7cfd7cfb7cda7cfa7cf97d087cf77cf67cf57cea7cda7cf27cf17cad7cef7cee7ced7cec7ceb7cd27ce97ce87ce77ce67ce57ce47cdb7ce27ce17ce07cdf,
  0x7d1e7d1d7d1c7d1b7d197a947d187d177d167ca47a947d137d127d117d457cac7d0e7d0d7d0c7cf37cac7d097d077cda7d067d057d047cd77d027ee97d007cff,
  0x7d3e7d3d7d3c7d397d3a7d387d297d7d7d367d357d347d337d307d317d2f7a937d847d2d7d2c7d2b7d2a7d277d287d267cc47d797d247d237d227d217d207d1f,
  0x7d5e7d5d7d5c7d597d5a7d587d537d887d567d557d547d857d7c7d497d507d4f7d4e7d4d7d4c7d4b7d4a7d477d487d467d327d877d0e7d3b7d427d417d407d3f,
  0x7d7e7d677a617d497a7f7a7f7a617a7f7d767d757d747d737d727d717d6e7a617a617d447a617d6b7d6a7d697d687d667d657d637d647d5b7d627d617d607d5f,
  0x7d9e7d987d9c7d9b7d9a7d997d977d967d037d957eeb7d937d927d917d907d8f7d8e7d8d7e987e9b7d8a7d89803a7a7f7a7f7d0a7a7f7a7f7d827d817d807d7f,
  0x7dbd7d987dbc7dbb7dba7db97db87db77dbe7db57db47db37db27db17db07daf7dae7dac7dab7daa7da97d9f7da87eec7da67da57da47da37da27da17da07d86,
  0x7ddc7ddd7d8c7ea17dda7dd97dc07dd77dd67f21805b7dd37dd27dd17dd07dcf7dce7dcd7dcc7dcb7dca7dc97dc87dc77dc67dc57fe67fc67dc27dc1803b7dbf,
  0x7dfe7dfc7dfb7dfa7eef7df97ef07df47df67df57f227dc47df27df17df07def7dee7ded7dec7f477f4b7de97de87de77de67de57de47fed7fef7de17dd57dde,
  0x7e1c7e1d7ef17e1b7e027e197e187e177e167e157e147e137e127e117e107e0f7e217e0d7e0c7e0b7e0a7e097e087e077e067e057e047e037e017dff7e007dfd,
  0x7e3c7e3d7e3a7e8c7eac7e387e377e347e367ef57e317e337e327e2f7e307e2d7e6a7e767e2b7e2a7e277e297ef27e257e267e237e247e1f7e227e207e007e1e,
  0x7e5e7e5c7e567e5d7e5a7e597e587e577e567e557e2e7e7a7e527e517e4f7e4a7e4e7e4d7e4c7e4b7e497e477e487ddf7ea57e457e447e437e3e7e417e407e3f,
  0x7e7d7e7c7e427e7b7ef67e2c7e787e777e757e2c7e747e737e727e717e707e6f7e6e7e6d7e6c7e6b7e607e2c7e687e677e667e657e647e637e627e617e5f7e54,
  0x7e9e7e9d7e9c7e9a7d8b7e997e507d8b7e967e957e947e937e927e917e907e8f7e8e7e8d7e3b7e397e897e877e887e837e867e857e847e817e827e7f7ea77eb5,
  0x7ebe7ebd7ebc7ebb7eba7eb97eb67eb77eb47eb07e7e7eb37eb27eb17eae7eaf7eaa7ed97edd7e397ea97e807ea87ef87e7e7ea47d8b7e8a7ea27ea07d8b7e9f,
  0x7ede7edc7eab7edb7eda7ead7eab7ed77ed57ed47ed27ed37ed07ed17ecc7ecf7ece7ecd7eca7ecb7ec87ec97ec77ec67ec57eb87ec47ef97ec27ec17ec07ebf,
  0x7efe7efd7efc7efb7ef77cd67cd67cd67ef47cd67cd67ef37eee7cd67cd67cd67cd67eed7eea7cd67cd67ee87cd67efa7cd67cd67ee47ee37ee27ee17ee07edf,
  0x7f1e7f1d7f1c7f1b7f1a7f197f187f177f167f157f147f137f127f117f107f0f7f0e7f0d7f0c814f81517f097f08803c7f067f057f047f037f027f017f007eff,
  0x7f0b7f3d7f3c7f3b7f3a7f397f387f377f367f357f347f337f327f317f307f2f7f2e7f2d7f2c7f2b816081627f287f207f267f257f247df87fe87df37dd4805c,
  0x7f827f5c7f5b7de37ff17f597f587f577f567f557f547f537f527f517f507f4f7f6d7f7d7f437feb7dea7f497f487deb7dea7f457f447f427f237f417f277f3f,
  0x7f7e7f7c7f4d7f7b7f797f787f777f767f5d7ff27f747f737f5f7f5e7f707f6f7f4e7f6c7f4d7f4c7f6a7f697f687f677f667f657f647f637f627f617f607f72,
  0x7f9d7f8c7ffb7f9b7f9a7f997f977f907f967f957f947f937f927f917f807ff87f8e7f8d7f8a7f8b7f897f887f877f7a7ff57f857f847f837f817f5e7f6e7fce,
  0x7fbd7fb57fbb7fba7fff7fb97fa57fb77fb67fb47fb27fb37fb17fb07faf7f987fae7fad7fac7fab7faa7ff47fa87fa77fa67fa47fa27fa37fa07fa17f9f7f9e,
  0x7fde7fdc7fd77fdb7fda7dc37fd87fd680087fd57fd280127fd17fd07fcf7fc980017dc37fcc7fcb7fca7fc87fc37fc77fbe7dc37fc47fc27fc07fc17fbc7fbf,
  0x7de27ffd7ffc7ff97de27dc37ff77dc37ffa7ff37de27dc37ff07de27de27fee7de27fec7de27fe17dc37fe97fe77dc37fe57dc37fe47fe37fe27fe07fdd7fdf,
  0x801e801d801c801b801a801980188017801680158014806f80117fd381528087800e800d800c800b800a80097fd47fd38006800580048003800280007de27ffe,
  0x803e803d8020000400040004000400040004000400040004000400040004000400040004000400040004000400040004000400040004000400047df37dd4801f,
  0x805e805d80410004000400040004000400040004000400040004000400040004000400040004000400040004000400040004000400040004000480407f2a8163,
  0x807e8079807c807a7f798153807880138075805d8074807380768071807080107f40806d806c806b806a8069806880678066806580648063806280618060805f,
  0x809e809d809c809b809a809980e780978096809480f68165809280918090808f808e808d808c808b808a8042808880867f40816480848083808280818080807f,
  0x80be80bd80bc80bb80ba80b980b880b780b680b580b480b380b280b180b080af80ae80de80ac80ab80a980e0815480a780a680a580a480a380a280a180a0809f,
  0x80aa807d80dc80db80da80d980d880d780d680d580d480d380d280d180d080cf80ce80cd80cc80cb80ca80c980c880c780c680c580c480c380c280c180c080bf,
  0x80fa80fd80fc80fb80f98098816780f780f5808980f080f380f280f180ef80ad813680ed80ec80eb80ea80e980e88095808980e580e480e380e280e180df807d,
  0x811e811d811b811a8102811981188112811681158114811381118110810a810f810e810d810b800b816880fe81088107810681058104810380f4815d810080ff,
  0x813d81298172813b813a81398138813781207f0a81348133813281318130812f812e812d812c812b812a81278128812681228125812481238121811c816e811f,
  0x815e815c7f0a815b814b8159815881578156815581507f0a7f0a7f0a7f0a814e7f0a814d814c814a81458149816181478146814381448142813e81418140813f,
  0x817a81798178817781747f29816a8173816b7f29816a816f816d7f29816c81718175816981667f297f2981767f297f297f297f297f0a7f29]

/-- `named_character_reference_idx_tbl` (1214-4530): `m_check` of the nodes. -/
def checkTbl : Table := ⟨16, 33148, checkData⟩

def mapData : Nat := pack 480 [
  0xe200000000c200000000c2003330223e000000223f000000223e0000000103000000010200000000e100000000e100000000c100000000c1,
  0x1d51e000001d504000000206100000000e600000000e600000000c600000000c60000000430000000041000000000b400000000b400000000e2,
  0x260000002a3f0000000101000000010000000003b100000003910000002135000000213500000000e000000000e000000000c000000000c0,
  0x222000000029a400000022200000002a5a0000002a580000002a5c0000002a5500000022270000002a53000000002600000000260000000026,
  0x299d00000022be000000221f00000029af00000029ae00000029ad00000029ac00000029ab00000029aa00000029a900000029a80000002221,
  0x224b000000224a0000002a700000002a6f0000002248000001d552000001d53800000001050000000104000000237c00000000c50000002222,
  0x2a0000002254000001d4b6000001d49c00000000e500000000e500000000c500000000c5000000224a000000224800000020610000000027,
  0x2a11000000223300000000e400000000e400000000c400000000c400000000e300000000e300000000c300000000c3000000224d0000002248,
  0x23b500000023050000002305000000230600000022bd0000002ae7000000221600000022cd000000223d000000203500000003f6000000224c,
  0x212c000000212c00000003f600000029b0000000223500000022350000002235000000201e00000004310000000411000000224c00000023b6,
  0x2a020000002a010000002a0000000022c300000025ef00000022c2000001d51f000001d505000000226c000000213600000003b20000000392,
  0x25be00000025b400000025aa00000029eb000000290d00000022c000000022c10000002a0400000025b300000025bd00000026050000002a06,
  0x1d53900000023100000002aed020e502261020e50003d0000002588000000259300000025910000002592000000242300000025b800000025c2,
  0x255200000025530000002554000000251000000025550000002556000000255700000029c900000022c800000022a500000022a5000001d553,
  0x229f0000002534000000256800000025670000002569000000252c00000025650000002564000000256600000025000000002550000000250c,
  0x25020000002551000000251400000025580000002559000000255a0000002518000000255b000000255c000000255d00000022a0000000229e,
  0x251c000000255e000000255f00000025600000002524000000256100000025620000002563000000253c000000256a000000256b000000256c,
  0x29c5000000005c00000022cd000000223d000000204f000001d4b7000000212c00000000a600000000a600000002d800000002d80000002035,
  0x222900000022d200000001070000000106000000224f000000224e000000224f0000002aae000000224e0000002022000000202200000027c8,
  0x10c0000002a4d000000212d00000002c700000020410fe000222900000021450000002a400000002a470000002a4b0000002a490000002a44,
  0x10b000000010a0000002a500000002a4c00000022300000000109000000010800000000e700000000e700000000c700000000c7000000010d,
  0x4470000000427000001d520000000212d00000000b700000000b700000000a200000000a200000029b200000000b800000000b800000000b8,
  0x229d000000229a000000229b00000021bb00000021ba000000225700000002c600000025cb00000003c700000003a700000027130000002713,
  0x223200000029c20000002aef0000002a10000000225700000029c300000022970000002295000000229600000024c800000000ae0000002299,
  0x22010000000040000000002c000000225400000022540000002a74000000003a0000002237000000266300000026630000002019000000201d,
  0x2210000001d5540000002102000000222e000000222e000000222f00000022610000002a6d0000002245000000210200000022010000002218,
  0x1d4b8000001d49e00000027170000002a2f00000021b50000002233000000211700000000a900000000a900000000a900000000a90000002210,
  0x22d3000000293d00000021b600000022df00000022de0000002935000000293800000022ef0000002ad20000002ad00000002ad10000002acf,
  0x22df00000022de000000293c00000021b70fe000222a0000002a45000000228d0000002a4a0000002a46000000224d0000002a48000000222a,
  0x2021000000232d0000002231000000223200000022cf00000022ce00000021b700000021b600000000a400000000a400000022cf00000022ce,
  0x10f000000010e00000002dd000000290f00000022a30000002ae40000002010000000219300000021d300000021a100000021380000002020,
  0x394000000220700000000b000000000b00000002a77000000291100000021ca00000020210000002146000000214500000004340000000414,
  0x6000000002dd00000002d900000000b400000021c200000021c30000002965000001d521000001d507000000297f00000029b100000003b4,
  0xf700000000f700000022f200000003dd000000214600000000a80000002666000000266600000022c400000022c400000022c400000002dc,
  0x2d900000000a8000001d555000001d53b0000000024000000230d000000231e0000000452000000040200000022c700000022c700000000f7,
  0x21d000000021d300000000a8000000222f000000230600000022a10000002214000000223800000022500000002251000000225000000020dc,
  0x21d30000002193000000222500000021d500000021d100000022a800000021d200000027f900000027fa00000027f80000002ae400000021d4,
  0x295f000000295600000021bd000000295e000000295000000021c200000021c300000021ca000000031100000021f500000029130000002193,
  0x29f600000004550000000405000001d4b9000001d49f000000230c000000231f000000291000000021a700000022a4000000295700000021c1,
  0xc900000027ff000000045f000000040f00000029a6000000296f00000021f500000025be00000025bf00000022f100000001110000000110,
  0x225500000000ea00000000ea00000000ca00000000ca0000002256000000011b000000011a0000002a6e00000000e900000000e900000000c9,
  0xc80000002a9a000001d522000001d508000000225200000021470000000117000000225100000001160000002a77000000044d000000042d,
  0x1120000002a970000002a95000000211300000023e700000022080000002a990000002a980000002a9600000000e800000000e800000000c8,
  0x2002000000014b000000014a00000020050000002004000000200300000025ab000000220500000025fb000000220500000022050000000113,
  0x225600000003f500000003b5000000039500000003b50000002a7100000029e300000022d5000001d556000001d53c00000001190000000118,
  0x29e50000002a78000000226100000021cc000000225f0000002242000000003d0000002a750000002a950000002a9600000022420000002255,
  0xf000000000d000000000d000000003b7000000039700000022420000002a730000002250000000212f000000213000000022530000002971,
  0x21470000002147000000213000000022030000002203000000002100000020ac00000000eb00000000eb00000000cb00000000cb00000000f0,
  0x25aa00000025fc000000fb01000001d523000001d509000000fb04000000fb00000000fb030000002640000000044400000004240000002252,
  0x21310000002ad900000022d400000022000000002200000001d557000001d53d000000019200000025b1000000fb02000000266d0006a00066,
  0xbe00000021560000002154000000215b0000002159000000215500000000bc00000000bc000000215300000000bd00000000bd0000002a0d,
  0x1f5000001d4bb000000213100000023220000002044000000215e000000215d000000215a0000002158000000215c000000215700000000be,
  0x4330000000413000000011d000000011c0000000122000000011f000000011e0000002a8600000003dd00000003dc00000003b30000000393,
  0x2a800000002aa90000002a7e0000002a7e0000002267000000226500000022db0000002a8c0000002265000000226700000001210000000120,
  0x4530000000403000000213700000022d9000000226b00000022d9000001d524000001d50a0000002a940fe00022db0000002a840000002a82,
  0x1d53e00000022e700000022690000002a880000002a8800000022690000002a8a0000002a8a0000002aa40000002a920000002aa50000002277,
  0x2273000000210a000001d4a200000022730000002a7e00000022770000002aa2000000226700000022db00000022650000000060000001d558,
  0x2a7c000000299500000022d70000002a7a0000002aa7000000003e000000003e000000226b000000003e000000003e0000002a900000002a8e,
  0xbd000000200a00000002c70fe00022690fe0002269000000227300000022770000002a8c00000022db00000022d700000029780000002a86,
  0x266500000001250000000124000000210f000000005e00000021ad0000002948000000219400000021d4000000044a000000042a000000210b,
  0x21aa00000021a9000000223b00000021ff00000029260000002925000000210b000001d525000000210c00000022b900000020260000002665,
  0x2043000000224f000000224e00000001270000000126000000210f000001d4bd000000210b00000025000000002015000001d559000000210d,
  0x438000000041800000000ee00000000ee00000000ce00000000ce000000206300000000ed00000000ed00000000cd00000000cd0000002010,
  0xec00000000ec00000000cc00000000cc000001d526000000211100000021d400000000a100000000a1000000043500000004150000000130,
  0x21480000002111000000012b000000012a000000211100000001330000000132000000212900000029dc000000222d0000002a0c0000002148,
  0x222c000000013100000029dd000000221e0000002105000000220800000021d200000001b500000022b7000000013100000021110000002110,
  0x4510000000401000000206200000020630000002a3c0000002a1700000022c200000022ba000000222b000000212400000022ba000000222b,
  0x2208000001d4be000000211000000000bf00000000bf0000002a3c00000003b90000000399000001d55a000001d540000000012f000000012e,
  0xcf00000000cf00000004560000000406000000012900000001280000002062000000220800000022f300000022f400000022f900000022f5,
  0x1d4a5000001d55b000001d5410000000237000001d527000001d50d000000043900000004190000000135000000013400000000ef00000000ef,
  0x43a000000041a0000000137000000013600000003f000000003ba000000039a0000000454000000040400000004580000000408000001d4bf,
  0x21da000001d4c0000001d4a6000001d55c000001d542000000045c000000040c000000044500000004250000000138000001d528000001d50e,
  0x21120000002a8500000027e8000000299100000027e800000027ea00000003bb000000039b000000211200000029b4000000013a0000000139,
  0x2973000000293900000021ab00000021a9000000291d000000291f00000021e4000000219000000021d0000000219e00000000ab00000000ab,
  0x298b000000005b000000007b0000002772000000290c000000290e0fe0002aad0000002aad0000002919000000291b0000002aab00000021a2,
  0x201c0000002936000000043b000000041b000000007b0000002308000000013c000000013b000000013e000000013d000000298d000000298f,
  0x21c600000021e4000000219000000021d0000000219000000027e80000002264000000226600000021b2000000294b0000002967000000201e,
  0x21d4000000219400000021c700000021bc00000021bd000000230a000000295900000021c3000000296100000027e6000000230800000021a2,
  0x22b400000029cf00000022b200000022cb000000295a00000021a400000022a3000000294e00000021ad00000021cb00000021c60000002194,
  0x2a7d0000002a7d0000002266000000226400000022da0000002a8b000000295200000021bc000000295800000021bf00000029600000002951,
  0x226600000022da0000002a8b00000022da00000022d60000002a850000002a930fe00022da0000002a830000002a810000002a7f0000002aa8,
  0x2a910000002276000001d529000001d50f000000230a000000297c00000022720000002a7d00000022720000002aa100000022760000002276,
  0x21da000000231e00000021c7000000226a00000022d8000000045900000004090000002584000000296a00000021bc00000021bd0000002962,
  0x22680000002a870000002a8700000022680000002a890000002a8900000023b000000023b00000000140000000013f00000025fa000000296b,
  0x27f600000027fc00000027f700000027fa00000027f700000027f500000027f800000027f500000027e600000021fd00000027ec00000022e6,
  0x2199000000005f00000022170000002a340000002a2d000001d55d000001d543000000298500000021ac00000021ab00000027f600000027f9,
  0x22bf000000200e000000296d00000021cb000000231f00000021c60000002993000000002800000029eb00000025ca00000025ca0000002198,
  0x141000000201a0000002018000000005b0000002a8f0000002a8d000000227200000021b000000021b0000001d4c100000021120000002039,
  0x297600000022c900000022cb00000022d60000002a790000002aa6000000003c000000003c000000226a000000003c000000003c0000000142,
  0x264200000000af00000000af0fe00022680fe00022680000002966000000294a000000299600000025c200000022b400000025c30000002a7b,
  0x43c000000041c0000002a2900000025ae00000021a500000021a400000021a700000021a600000021a6000000290500000027200000002720,
  0x2a000000222300000000b500000000b50000002127000001d52a000001d5100000002133000000205f0000002221000000223a0000002014,
  0x22a7000000221300000020260000002adb00000022130000002a2a0000002238000000229f000000221200000000b700000000b70000002af0,
  0x143000000220700000022b800000022b800000003bc000000039c000000223e000001d4c200000021330000002213000001d55e000001d544,
  0xa000000000a00000002115000000266e000000266e00000022490000000149003380224b0033802a700000002249020d2022200000000144,
  0x43d000000041d0000002a420033802a6d000000224700000001460000000145000000014800000001470000002a43003380224f003380224e,
  0x2262000000200b000000200b000000200b000000200b00338022500000002197000000219700000021d7000000292400000022600000002013,
  0x227100000022710033802267000001d52b000001d51100000022040000002204000000000a000000226a000000226b00338022420000002928,
  0x2af200000021ae00000021ce003380226b000000226f000000226f020d20226b000000227500338022d90033802a7e0033802a7e0033802267,
  0x21cd000000227000338022660000002025000000219a00000021cd000000045a000000040a000000220b00000022fa00000022fc000000220b,
  0x226e020d20226a000000227400338022d8000000226e0033802a7d0033802a7d0033802266000000227000000021ae00000021ce000000219a,
  0x226200000000ac00000000ac0000002aec000001d55f000000211500000000a000000020600000002224003380226a00000022ec00000022ea,
  0x33802a7e0000002279003380226b00338022670000002271000000226f00000022040033802242000000226000000022090000002226000000226d,
  0x22ec00338029cf00000022ea00000022f600000022f7000000220900338022f900338022f50000002209003380224f003380224e0000002275,
  0x22fd00000022fe000000220c000000220c0033802aa10033802aa200000022740033802a7d003380226a00000022780000002270000000226e,
  0x20d20228200000022e3003380229000000022e2003380228f00000022ed00338029d000000022eb000000220c00000022e00033802aaf0000002280,
  0x222400000022490000002247000000224400000022410000002289020d202283003380227f00000022e10033802ab000000022810000002288,
  0x219b00000021cf0033802aaf00000022800033802aaf00000022e000000022800000002a140033802202020e502afd00000022260000002226,
  0x2224000001d4c3000001d4a90033802ab000000022e1000000228100000022ed00000022eb000000219b00000021cf003380219d0033802933,
  0x20d20228200000022880033802ac5000000228400000022e300000022e2000000222600000022240000002244000000224400000022410000002226,
  0xd100000022790033802ac60000002289020d20228300000022890033802ac600000022850033802ab000000022810033802ac50000002288,
  0x2116000000002300000003bd000000039d00000022ed00000022eb00000022ec00000022ea000000227800000000f100000000f100000000d1,
  0x20d202264000000290200000029de0000002904020d20003e020d20226500000022ac00000022ad00000022ae00000022af020d20224d0000002007,
  0xd300000000d300000029270000002196000000219600000021d60000002923020d20223c020d2022b50000002903020d2022b4020d20003c,
  0x150000000229d000000043e000000041e00000000f400000000f400000000d400000000d4000000229a000000229b00000000f300000000f3,
  0xd200000000d200000002db000001d52c000001d51200000029bf0000000153000000015200000029bc00000022990000002a380000000151,
  0x14c00000029c0000000203e00000029bb00000029be00000021ba000000222e00000003a900000029b500000029c100000000f200000000f2,
  0x2018000000201c00000029b7000001d560000001d546000000229600000029b600000003bf000000039f00000003c900000003a9000000014d,
  0xba00000000ba00000000aa00000000aa000000213400000021340000002a5d00000021bb00000022280000002a54000000229500000029b9,
  0x229800000000f800000000f800000000d800000000d80000002134000001d4aa00000024c80000002a5b0000002a570000002a5600000022b6,
  0x233d00000000f600000000f600000000d600000000d60000002a3600000022970000002a3700000000f500000000f500000000d500000000d5,
  0x220200000022020000002afd0000002af3000000222500000000b600000000b6000000222500000023dc00000023b400000023de000000203e,
  0x3d500000003c600000003a6000001d52d000001d513000000203100000022a50000002030000000002e0000000025000000043f000000041f,
  0x229e0000002a23000000002b000000210f000000210e000000210f00000003d600000022d400000003c000000003a0000000260e0000002133,
  0x2a15000000210c00000000b10000002a270000002a2600000000b100000000b100000000b10000002a720000002a2500000022140000002a22,
  0x2ab7000000227a0000002aaf0000002ab3000000227c0000002ab7000000227a0000002abb00000000a300000000a3000001d5610000002119,
  0x20320000002033000000227e00000022e80000002ab50000002ab90000002aaf000000227e000000227c0000002aaf000000227a000000227c,
  0x221d0000002237000000221d00000023130000002312000000232e000000220f000000220f00000022e80000002ab50000002ab90000002119,
  0x211a0000002a0c000001d52e000001d514000000200800000003c800000003a8000001d4c5000001d4ab00000022b0000000227e000000221d,
  0x22000000002200000000220000000022000000225f000000003f0000002a16000000210d000001d4c6000001d4ac0000002057000001d562,
  0xbb00000027e900000029a5000000299200000027e900000027eb00000029b3000000221a00000001550000000154003310223d00000021db,
  0x294500000021ac00000021aa000000291e0000002933000000292000000021e50000002975000000219200000021d200000021a000000000bb,
  0x2773000000290d000000290f0000002910000000211a0000002236000000291a000000291c000000219d00000021a300000029160000002974,
  0x420000000007d000000230900000001570000000156000000015900000001580000002990000000298e000000298c000000005d000000007d,
  0x25ad000000211d000000211c000000211b000000211c000000211c00000021b3000000201d000000201d000000296900000029370000000440,
  0x2964000001d52f000000211c000000230b000000297d000000296f00000021cb000000220b00000000ae00000000ae00000000ae00000000ae,
  0x21c400000021e5000000219200000021d2000000219200000027e900000003f100000003c100000003a1000000296c00000021c000000021c1,
  0x21c900000021cc00000021c400000021c000000021c1000000230b000000295500000021c2000000295d00000027e7000000230900000021a3,
  0x295400000021be000000295c000000294f00000022b500000029d000000022b300000022cc000000295b00000021a600000022a2000000219d,
  0x21fe00000027ed0000002aee00000023b100000023b1000000200f00000021cc00000021c4000000225300000002da000000295300000021c0,
  0x21db00000021c90000002a120000002994000000002900000029700000002a350000002a2e000001d563000000211d000000298600000027e7,
  0x22b500000025b900000022ca00000022cc00000020190000002019000000005d00000021b100000021b1000001d4c7000000211b000000203a,
  0x1600000002ab8000000227b0000002abc000000201a000000015b000000015a000000211e000000296800000029f400000029ce00000025b8,
  0x2a1300000022e90000002ab60000002aba000000015d000000015c000000015f000000015e0000002ab00000002ab4000000227d0000000161,
  0xa700000000a70000002198000000219800000021d800000029250000002a6600000022a100000022c500000004410000000421000000227f,
  0x42800000004490000000429000000266f0000002322000001d530000001d5160000002736000000221600000022160000002929000000003b,
  0x3c200000003c300000003a300000000ad00000000ad0000002191000000219200000022250000002223000000219000000021930000000448,
  0x29720000002a2400000022460000002a9f0000002a9d0000002aa00000002a9e000000224300000022430000002a6a000000223c00000003c2,
  0x44c000000042c0fe0002aac0000002aac0000002aaa0000002323000000222300000029e40000002a33000000221600000022180000002190,
  0xfe000229400000022940fe00022930000002293000000222500000026600000002660000001d564000001d54a000000233f00000029c4000000002f,
  0x25a100000025a100000025a100000022920000002290000000229200000022900000002291000000228f0000002291000000228f000000221a,
  0x2216000001d4c8000001d4ae000000219200000025aa00000025aa0000002294000000229200000022900000002291000000228f0000002293,
  0x2ac50000002abd000000228200000022d000000000af00000003d500000003f50000002605000000260600000022c600000022c60000002323,
  0x22860000002ac50000002286000000228200000022d000000029790000002abf000000228a0000002acb0000002ac10000002ac30000002286,
  0x227f000000227d0000002ab0000000227b000000227d0000002ab8000000227b0000002ad30000002ad50000002ac70000002acb000000228a,
  0xb9000000228300000022d1000000266a00000022110000002211000000220b000000227f00000022e90000002ab60000002aba0000002ab0,
  0x228700000022830000002ac400000022870000002ac60000002ad80000002abe00000000b300000000b300000000b200000000b200000000b9,
  0x228b0000002ac60000002287000000228300000022d10000002ac0000000228b0000002acc0000002ac2000000297b0000002ad700000027c9,
  0x900000000df00000000df000000292a0000002199000000219900000021d900000029260000002ad60000002ad40000002ac80000002acc,
  0x231500000020db00000004420000000422000000016300000001620000000165000000016400000023b400000003c400000003a40000002316,
  0x200a0205f000000223c000000224800000003d100000003d100000003b80000000398000000223400000022340000002234000001d531000001d517,
  0x2245000000224300000002dc000000223c00000000fe00000000fe00000000de00000000de000000223c000000224800000020090000002009,
  0x1d54b0000002af1000000233600000022a40000002928000000222d0000002a300000002a3100000022a000000000d700000000d70000002248,
  0x25b9000000225c00000022b400000025c300000025bf00000025b500000021220000002122000000203400000029290000002ada000001d565,
  0x426000001d4c9000001d4af00000023e20000002a3b00000029cd0000002a3900000020db0000002a3a000000225c00000025ec00000022b5,
  0xfa00000000fa00000000da00000000da00000021a0000000219e000000226c00000001670000000166000000045b000000040b0000000446,
  0xfb00000000fb00000000db00000000db000000016d000000016c000000045e000000040e0000002949000000219100000021d1000000219f,
  0xf900000000d900000000d9000001d532000001d518000000297e000000296e0000000171000000017000000021c500000004430000000423,
  0xa8000000016b000000016a00000025f8000000230f000000231c000000231c000000258000000021be00000021bf000000296300000000f9,
  0x2191000001d566000001d54c00000001730000000172000000228e00000022c300000023dd00000023b500000023df000000005f00000000a8,
  0x2196000000228e00000021be00000021bf000000296e000000219500000021d5000000219500000021c50000002912000000219100000021d1,
  0x230e000000231d000000231d00000021c800000021a500000022a500000003c500000003a500000003d200000003c500000003d20000002197,
  0xdc00000021c800000025b400000025b50000000169000000016800000022f0000001d4ca000001d4b000000025f9000000016f000000016e,
  0x21d5000000221d00000003d600000003d5000000220500000003f000000003f5000000299c00000029a700000000fc00000000fc00000000dc,
  0x2ae80000002aeb00000022b300000022b200000003d10fe0002acc0fe000228b0fe0002acb0fe000228a00000003c200000003f10000002195,
  0x225a00000022bb000000222800000022c10000002ae600000022a200000022a800000022a900000022ab000000043200000004120000002ae9,
  0x1d533000001d519000000200a00000022400000002758000000007c0000002223000000007c0000002016000000007c000000201600000022ee,
  0xfe0002acc0fe000228a0fe0002acb000001d4cb000001d4b100000022b3000000221d000001d567000001d54d020d202283020d20228200000022b2,
  0x1d534000001d51a00000021180000002259000000222700000022c00000002a5f00000001750000000174000000299a00000022aa0fe000228b,
  0x1d51b00000025bd00000022c300000025ef00000022c2000001d4cc000001d4b2000000224000000022400000002118000001d568000001d54e,
  0x1d569000001d54f0000002a0000000022fb00000027fc00000027f500000027f800000003be000000039e00000027f700000027fa000001d535,
  0xdd00000022c000000022c100000025b30000002a040000002a06000001d4cd000001d4b300000027f600000027f90000002a020000002a01,
  0x1d51c00000000a500000000a5000000044b000000042b00000001770000000176000000044f000000042f00000000fd00000000fd00000000dd,
  0xff00000000ff0000000178000000044e000000042e000001d4ce000001d4b4000001d56a000001d55000000004570000000407000001d536,
  0x3b60000000396000000200b0000002128000000017c000000017b00000004370000000417000000017e000000017d000000017a0000000179,
  0x200c000000200d000001d4cf000001d4b5000001d56b000000212400000021dd00000004360000000416000001d5370000002128]

/-- `named_character_reference_map_tbl` (4532-4757): the first code point in the low 20 bits, the second in the next. -/
def mapTbl : Table := ⟨40, 2231, mapData⟩

end Verif.Model.Tables.NamedRef
