import Verif.Model.Table
/-
Index tables of Big5.
Transcribed by a script; see Verif.Model.Table for the packing.
-/
namespace Verif.Model.Tables
open Verif.Model.Table

set_option maxRecDepth 100000

/-- Rows of `index_code_point_big5`. -/
def cpBig5Data : Nat := pack 480 [
  0xffffffffffffffffffffffffffffffffffffffffffffffffffffffffffffffffffffffffffffffffffffffffffffffffffffffffffffffffffffffff,
  0xffffffffffffffffffffffffffffffffffffffffffffffffffffffffffffffffffffffffffffffffffffffffffffffffffffffffffffffffffffffff,
  0xffffffffffffffffffffffffffffffffffffffffffffffffffffffffffffffffffffffffffffffffffffffffffffffffffffffffffffffffffffffff,
  0xffffffffffffffffffffffffffffffffffffffffffffffffffffffffffffffffffffffffffffffffffffffffffffffffffffffffffffffffffffffff,
  0xffffffffffffffffffffffffffffffffffffffffffffffffffffffffffffffffffffffffffffffffffffffffffffffffffffffffffffffffffffffff,
  0xffffffffffffffffffffffffffffffffffffffffffffffffffffffffffffffffffffffffffffffffffffffffffffffffffffffffffffffffffffffff,
  0xffffffffffffffffffffffffffffffffffffffffffffffffffffffffffffffffffffffffffffffffffffffffffffffffffffffffffffffffffffffff,
  0xffffffffffffffffffffffffffffffffffffffffffffffffffffffffffffffffffffffffffffffffffffffffffffffffffffffffffffffffffffffff,
  0xffffffffffffffffffffffffffffffffffffffffffffffffffffffffffffffffffffffffffffffffffffffffffffffffffffffffffffffffffffffff,
  0xffffffffffffffffffffffffffffffffffffffffffffffffffffffffffffffffffffffffffffffffffffffffffffffffffffffffffffffffffffffff,
  0xffffffffffffffffffffffffffffffffffffffffffffffffffffffffffffffffffffffffffffffffffffffffffffffffffffffffffffffffffffffff,
  0xffffffffffffffffffffffffffffffffffffffffffffffffffffffffffffffffffffffffffffffffffffffffffffffffffffffffffffffffffffffff,
  0xffffffffffffffffffffffffffffffffffffffffffffffffffffffffffffffffffffffffffffffffffffffffffffffffffffffffffffffffffffffff,
  0xffffffffffffffffffffffffffffffffffffffffffffffffffffffffffffffffffffffffffffffffffffffffffffffffffffffffffffffffffffffff,
  0xffffffffffffffffffffffffffffffffffffffffffffffffffffffffffffffffffffffffffffffffffffffffffffffffffffffffffffffffffffffff,
  0xffffffffffffffffffffffffffffffffffffffffffffffffffffffffffffffffffffffffffffffffffffffffffffffffffffffffffffffffffffffff,
  0xffffffffffffffffffffffffffffffffffffffffffffffffffffffffffffffffffffffffffffffffffffffffffffffffffffffffffffffffffffffff,
  0xffffffffffffffffffffffffffffffffffffffffffffffffffffffffffffffffffffffffffffffffffffffffffffffffffffffffffffffffffffffff,
  0xffffffffffffffffffffffffffffffffffffffffffffffffffffffffffffffffffffffffffffffffffffffffffffffffffffffffffffffffffffffff,
  0xffffffffffffffffffffffffffffffffffffffffffffffffffffffffffffffffffffffffffffffffffffffffffffffffffffffffffffffffffffffff,
  0xffffffffffffffffffffffffffffffffffffffffffffffffffffffffffffffffffffffffffffffffffffffffffffffffffffffffffffffffffffffff,
  0xffffffffffffffffffffffffffffffffffffffffffffffffffffffffffffffffffffffffffffffffffffffffffffffffffffffffffffffffffffffff,
  0xffffffffffffffffffffffffffffffffffffffffffffffffffffffffffffffffffffffffffffffffffffffffffffffffffffffffffffffffffffffff,
  0xffffffffffffffffffffffffffffffffffffffffffffffffffffffffffffffffffffffffffffffffffffffffffffffffffffffffffffffffffffffff,
  0xffffffffffffffffffffffffffffffffffffffffffffffffffffffffffffffffffffffffffffffffffffffffffffffffffffffffffffffffffffffff,
  0xffffffffffffffffffffffffffffffffffffffffffffffffffffffffffffffffffffffffffffffffffffffffffffffffffffffffffffffffffffffff,
  0xffffffffffffffffffffffffffffffffffffffffffffffffffffffffffffffffffffffffffffffffffffffffffffffffffffffffffffffffffffffff,
  0xffffffffffffffffffffffffffffffffffffffffffffffffffffffffffffffffffffffffffffffffffffffffffffffffffffffffffffffffffffffff,
  0xffffffffffffffffffffffffffffffffffffffffffffffffffffffffffffffffffffffffffffffffffffffffffffffffffffffffffffffffffffffff,
  0xffffffffffffffffffffffffffffffffffffffffffffffffffffffffffffffffffffffffffffffffffffffffffffffffffffffffffffffffffffffff,
  0xffffffffffffffffffffffffffffffffffffffffffffffffffffffffffffffffffffffffffffffffffffffffffffffffffffffffffffffffffffffff,
  0xffffffffffffffffffffffffffffffffffffffffffffffffffffffffffffffffffffffffffffffffffffffffffffffffffffffffffffffffffffffff,
  0xffffffffffffffffffffffffffffffffffffffffffffffffffffffffffffffffffffffffffffffffffffffffffffffffffffffffffffffffffffffff,
  0xffffffffffffffffffffffffffffffffffffffffffffffffffffffffffffffffffffffffffffffffffffffffffffffffffffffffffffffffffffffff,
  0xffffffffffffffffffffffffffffffffffffffffffffffffffffffffffffffffffffffffffffffffffffffffffffffffffffffffffffffffffffffff,
  0xffffffffffffffffffffffffffffffffffffffffffffffffffffffffffffffffffffffffffffffffffffffffffffffffffffffffffffffffffffffff,
  0xffffffffffffffffffffffffffffffffffffffffffffffffffffffffffffffffffffffffffffffffffffffffffffffffffffffffffffffffffffffff,
  0xffffffffffffffffffffffffffffffffffffffffffffffffffffffffffffffffffffffffffffffffffffffffffffffffffffffffffffffffffffffff,
  0xffffffffffffffffffffffffffffffffffffffffffffffffffffffffffffffffffffffffffffffffffffffffffffffffffffffffffffffffffffffff,
  0x23617242bf04c4004c47047440473603b9527cc504ce227cb1045b304d772726704578045a60460304c32043f0ffffffffffffffffffffffffffffff,
  0x28bb90591d07d95fffff056fb0664d23f6123e0621a6325a540722526b23046a104aa404d0727c6c04c85045da0474f2a35104c57270d226e8b27352,
  0x07afc03af5258de03eec260212369e21d53038750749d0746129945085930676e05cfc05bb705ad129eb00362505aa421d5e05bdb27bef0973403df4,
  0x07a2c0678207bc50744c0889d06a290666007a32079d0092180974a0589608613049300942f09f96084840430a2325e20a8a231ea2890d2416109f97,
  0x224c109fc8224bc07bae25d990418126e88046ae08b8f27b6507a72058182368e041310544c0492f057b309fc7074c625db9073c4034e6090460524f,
  0xffffffffffffffffffffffffffffffffffffffffffffffffffffffffffff09fcb0706e062c12adff044e109fca040b4235bb0850409fc9224cc224c9,
  0x031c4031c3031c2031c1031c0fffffffffffffffffffffffffffffffffffffffffffffffffffffffffffffffffffffffffffffffffffffffffffffff,
  0x0011a000c900112000c0001cd000c100100031ce031cd2010e031cc031cb031ca031c9200ca031c821fe8200cb031c7031c6200cd200d1031c52010c,
  0x0014d000ec001d0000ed0012b000e80011b000e90011300251000e0001ce000e100101000ca01ec0fffff01ebefffff000d2001d1000d30014c000c8,
  0xffffffffffffffffffff023db023da00261000ea01ec1fffff01ebffffff000fc001dc001da001d8001d6000f9001d4000fa0016b000f2001d2000f3,
  0xffffffffffffffffffffffffffffffffffffffffffffffffffffffffffffffffffffffffffffffffffffffffffffffffffffffffffffffffffffffff,
  0xffffffffffffffffffffffffffffffffffffffffffffffffffffffffffffffffffffffffffffffffffffffffffffffffffffffffffffffffffffffff,
  0xffffffffffffffffffffffffffffffffffffffffffffffffffffffffffffffffffffffffffffffffffffffffffffffffffffffffffffffffffffffff,
  0x04f2804f1a0649127735ffffffffff091df09d4e06edd04e3dffffffffff0650afffff211452a3a9ffffffffffffffffffffffffffffffffffffffff,
  0x065890603b05e8605c9a05b9f05b9e05b6605934059320590705904058f0056e2053d8053d10534e0533b052a8052a1051e40519c051740515604fa8,
  0x0741108f6e08f6708f6608be208bbe089c60836f082cf0827a07f3707f0607edf07ecf07ec707eba07eac07ea407535070bc06d4e0686506804067fe,
  0x09e0c09dc904ccd09ec70809fffffffffff209e7080f608d0bfffff080bc0915e078b80918cffffffffffffffffffff0522707ac90694607dcd07cfc,
  0x04e8704e8004e8104e2422ae6205d021dca2846c0798709f9909a8f09a6c04911fffff075190823e06e9afffff035c12a13309e0a2700e29df604c3e,
  0x053b003551053a9035c705327052900527904e8905205051fc051db0590505186034a5034930347d050880500303e4804fbd0344c04f3704eeb04ebf,
  0xfffff0552527d84035c5055d7035bf035a50553f03598055280552305518054ef054d0054b9054b4054a30549303681035720356d05423053c203553,
  0x210f420cd520fb420d7c064dd24dea269f22815d047d503a3422c380777a280be04053294e524db808e4620341039ec22cc6055902512b20d1520c42,
  0x22d44278c8297d4252c70350603fed295f403a6709ab222cc224ea7047f4280e929a4d20d46fffff244d32825622ca920f6420c0b20e9608e7e0648d,
  0x0480bfffff2073128b4c221a108e6820c4325052064ea279a026716266da2106f039fb2107722bca22d4c054e3064b4260a5043d9fffff0981509d6e,
  0x08dc022775039fe0637920d9c098f5081aa2109d22a6604ab4fffff043ba040bb0557920d9620f4c26097204fc245c8fffff22d8d0587303ffa201a9,
  0x24e3b06c3d034bc2972022cb220f3105652220c725e49035782829b03a0603992239c2210c8fffff22cc922acf20e092a601fffff03e430647c056a1,
  0x20e4c2114f20d4720f3003f9320eaa20f8d20e8c251e3035fb2293922803210cf07f932681c20c3420e7a28ccd2a65b2220822e8b27574ffffffffff,
  0x28cd226b502a63220f2e210c720e9803a1822c5522c5120d7f20d7e22bce27639233f420fad064322269603ff92113d210c020d4820ba920eabfffff,
  0x20e0f20efa091b6280bd0535f03797081342657205c1c080ec0816d0714022dee2775e09ab609c2629ec3fffff055b9082c4054cc095aa28cca28d99,
  0x0579c210f6210f52101e2101d05a5422da424e5020e792145528207211482107820e7820e10210c9227b5056af20cd60360924deb035dd20efb20e77,
  0x09f2704b2c0480005b6807bb22573d0361a05268058992827c241772183a249da2a2bd252d82118020fb6037032517e20e7b20fb5282cd2769420e11,
  0x06b7a065350624c038fa05fc405f5105c230353e04ebb04e5b20086097512f87821bc10590204e2805689035f2055fb2313d25b7409b8d09c1f049e7,
  0x08ba0278b2089c1088640535d269512661208080080022634bfffff034c12626a07f5307cf90793b07f52248e9072ad04e2c0722b0706c06c3a06c35,
  0x0503bfffff094a2062370961d2008704e370f90706b6f09ec409e1f09c7c2981009963098de098ce09875097e628e0f095e80957f095780948508d1d,
  0x04b102198003c8b2a10723281073ba0671907191091f608fa728a320612225d3003559251cd04b2005cf5070772414e0888f03dc909fa629c7306dfe,
  0x04ff004ea3077dd09fa7289e3076d9093f42207e053240704d0975528aea2994707a2a20a6f0860f042232a2ba06a63040092870f051ae07402078e4,
  0x03edb0738c2450507200fffff06cff23c6306a4306919233f90658b2271205fc205e9905e9221db6058d00589207d8b0543409fa804f1704e2f050bc,
  0x2143f28db909fac09221099e00855f08fcf09fab08eb909faa0889009fa908597082f807e6c07cc307bec07a932569525ca408b83074b905b1524a13,
  0x09faf05b9609fae09fad26fbe26b1505d7b26d7404c812710d082bf2497b085d6fffff0573d042760676b09868fffffffffffffff05a1a042a204071,
  0x04c7721e23240ec045580715709fb205d782355103d1205c7808af923b1a05cd5fffff045360439a2279623256044c303d88079ca06e5707e5b066e7,
  0x037d6040f82a1b509fb303f0729079046bb041022896d221c1fffff20b9f05f3b298fa098560816c059bf2023904fb408acc26c41201a40344a03978,
  0x03dfc05d5605d4805d3e041ed044bd044de0366124b0f03fc8045ea04d7604c7b04d890451b045612549a038d40456d273ff286b20417c26c46046f7,
  0x062e5062900622c039b8061cf061b9061b70398905ce50613d060d70394d0393f039140390805f8305f2505ebd05e42038380382005db905da40380f,
  0x067a403b420671603b220669203af206653065ff03abd0658603a9709f9f0562105d15064c003a4b0645a06407063fb063e203a03056b1039f806318,
  0x06aab03bf206a9903bec06a8206a7106a7406a6503bdd069d603bbc069850699f069640725c069430690903b7b03b7103b72068840684a03b5806800,
  0x06eda06ee206ebb289c006e8606e2906e1806e1506db106da403cef06d8106d2606d0606d0203ccb06caa06c7506bea06bc106b8106af606ad406ab5,
  0x035f1043c120325070890707f0706f070540705003d910702c03d8a05c99071b703d7503d6a06fbe06f8123f4103d4606f3406f2406ee906ee809f7f,
  0x07ada041ca2648d071d107ac307ac207ab007abb259ac07a7d07a65294d9258e107a4905b7428be9069a20364e257e00713e26ed3057be23ed720ed8,
  0x07bfa0849225c6503dad25d2007bb807b920842107bd026c7f25bb40839c07b6f07ba225cfe2530e07b2907b5507b0b25c01054b2041ef07aea07add,
  0x07dab07d890748d26ed607d5d26e440451d07e6707cce07cf507cf307c7407ce607cc707cc9245780667d07ca62488207c8307c4425cc107c3507c06,
  0x262d00793607f4707f4107f4007e270946c0432b07e9207e6e2615a2612107e1d2836d07de5217f907df503d1307de4260292405707dd207db307135,
  0x0498922714080610803c0803b26cc32a0870802f080280801d08008080052648907ffa2833a04503237660455c200682166107fa32635107f97099e1,
  0x26a5220b0d082290447a24a9524a6506a532185e082182148a064e724fb82649806c7f226f6058b00811a0810728a48080a706725266e823de326626,
  0x082e20827b2355a2317d036c1217b420e160831a082d00854b041db2f9940691b082aa23df82177323530249a726b0a08362084e2214fd04ff923d7e,
  0x25be40845822eef26e42034960855a06a5726ed40347e083d3083c1083ac26da50450b08385055ec0831d03dbf235ce26b9726b0526da323e8b08318,
  0x26e9905af2085340454325cc00424025c91084e408493044a0083910840f084de26e4326e7726b96084a80795823cb50844a06aa7044e403dd308471,
  0x22c27087ee2a0f8087710867e2739a053f7218a203648086280456a2f9b2270cd215820860227088085c12863b2862508616067bf045160857304527,
  0x089a60898a089872770f07777088c5063c1088b5088b40465b0889c0885e275e423db9275e008846088450460f068560866c056610880f087da087b1,
  0x08b4c08b3f255652543008b1f08b0c0717c27b380471323f8f27b3a07ae927a5908a90091fe0779308a9c27abd27924089e728a25089bc089a7089a9,
  0x08d110705c08cdb2191008d0308d1227dbd27d9808cd627d53037252f9d427d8f27d5408c9b0884f04615216df08aaf08b9b08b9024a7a08aa908b4d,
  0x08fb320a502a29f0930308fa5284122836508f2d08f19092d408ec308eb608ead07ae72710c281bc03b7c2498a210142800208da908d7703ed024cc9,
  0x090ae286e6090c428713090a82860b2856c0906127abe2853c0903726ed7039802232528501286bc2a01408ff92326205ef823dbb2853d289de0492a,
  0x0708f28beb28ae10936b0932c20d31255db28b0c23c9b28ac6092b9255b9092620924106c9f0920e21e892893307cac091c4091a903af009167090fd,
  0x0967b06c1c049df23e2e2127c286d82267a042b906ff6095a009426095a60958508ebc0945b0937328bff28c3928bec092440496528ae528ae205ac3,
  0x0453d04a0f0973608642097312330a2191524ad1290e5290af264102027426cb8049a1053cc096bd28ae0078f5096b6061da26ed5096a30416c09696,
  0x097ee2546c097e0097d2097c0097be097b10979f09789230bc230b7050d0094250975f291eb05b4a09757291d50975c0971b05b410707524ae904585,
  0x216d326d2704aff098c7098c8098b7098ca257062415c2063003d512717503b0e098660984b098330983404ad12797a2941d097f5097ff294330741c,
  0x04c0e09af429b0509ae209ae029bd5290b1036c42572509a5809a1009a3b09a0c099f5299052985704b7224a290993909378098ec098e6098e1055b0,
  0x2a0e12a1ab2a19229fb709dd429e6809c0c09bff09c022424b09b8e2186305a4529d3e09b4009b502307d038c3269a809b34050342860009b2d09b14,
  0x2436409eaf09eaa04d3409ea209e9e09e9509e902a2b42a0b909d392a2332193b2a2202a1932215b09dc40688809e0e2a13409d8309d7e2a1df2a123,
  0x09f6909f620847f097f22908b099b809f450568a0569f09f3909f1609f1726da20942404b9609f0809f0228c2b037be04f3203d1d039e503b6009ec1,
  0x244b92896c093cb09381092ec28a44093f30936928e362897e0799f218fa28bda0739e24a5124348249f807177249bb2497504bbe0721609f8e07adc,
  0x0372325f4b218d121774036e121839216fb03722217f82542f2188503ec723599218be070a3217ef0717e243f824473070d007a430777203eeb07217,
  0x03c1503733067f926f262999d236ee044f42705223efb2555c23e3127165249940845508503236a608503214b6213c6212a8213fe24a250575b216c0,
  0x24436038190512b04ef80939c28b13093c620e0d20ba820fdf05692266b10569e054cb26c212410f2408b240e12373f0405706810219220586c03de7,
  0x04f0304fa20510d050cd04e982020c08ada2027528eb3202c004f2903435204142030a03999203cb201ab05a682565104f8a04f4b2037f2046504ebc,
  0x205e0051c3051a823e892188406d7223ebf23e392359506e760515e0515d0515b05159050fc0505804fe504fcc050810506c0502e04f4223e8a24a0e,
  0x074140749903ede0747920e1d069d1210e4249ac20c202438c0718c0467a0936e052e120873052a4052592070e28a9c08d7a2049120492204a3044dd,
  0x28a4605a99058cb0363e0577f0578d057dd09366096f40925d0571d20bc6054cd20345055b4240c90720f03584053d02408d24abc04b8e0739807456,
  0x213030748c093e02041328bd705a8125e8305a210744306d05036f52429521861219f32594605a1205acf05a7e0928f059b805a2c217102176f216fa,
  0x28a470812a036d3216fe036dd218a003701219042190305b4f05ecd23aee2197c2199605e4805e5e05c9e05c1e037a0093bd289fb094080497207105,
  0x2003e061c026f7329088225be225af03eb805fdb2262b228600607e08860275fd0861405b442173b05a6b217ab2192705f0e05f0c289a82347221dba,
  0x22d67249e3063d106331064b62a45b0633722e78298ea2345022b2203a2922b6a24665064712914d246d422d0722c9b0607506198061992261b20046,
  0x2555b216fc2558f28b22255840419003ae0231b323289066ce2943f218d9232e00550d232ab24989232ad2308e03bf4069720656b0643b22ca1062a4,
  0x237bc2383a038d1258720661e232e1232d20666321deb278700663004b930666b26d240668e242c9231822320f03464232342182a23103078ee25425,
  0x06a7a03bd706a4c06898065112191206b0506ac906a5206a3324487237d50386306abe03bc40681e068b62462a0678f03b96074d0233fe237a203b99,
  0x0784206d240584706e0a05a3d2403c06e0403d8f23f7f06d67249ec06f0b06da509467289dc2801e0928928acb28bea092f2093a023c9a23fc006b57,
  0x060a723f3528c2324adf03eb103f0625fe12491724a4a2365f23ef80747a205eb24aa405179247252478f072940728707250070f1242762431a0713b,
  0x24a4e03dcd03afb2498e249ab28acc0746803b192a5c6076730755503f5824d0624cd903f63075830455126dea0449f07437093870743c074cc03ef3,
  0x24aba03ebf0749b07438248f003a5e23781246970777b0770f0770e2323207778251e725221050df2186428ae30934205732091fa248f3249c503eff,
  0x216e60416e079f407a3a23efa06a2d079a5084960799b0410e256e32774107959073d0078d2078880788d0781e2558109307261ae24a96040c824ac7,
  0x25bc605a2a078f02025b05a0d25a9c25aaf226f505a5907ae220c0d201d4036aa035700556b035972176e23dba202992498c20d4c079f10923504132,
  0x25e8207d9727b482615c2626107f4e07dd307e0707ddc06ab207cae07c7c07c8e217b0249f907ccd25ea625ebc25bb30421107c6d07c5d041f907afe,
  0x249f7039e22343f06a1c09a6308645099e625e0e07b0c25d4325ae92082c07b2707fdd24962263f826412057c4235cf2004e067d62091626b750426a,
  0x0417f05a862721b0861026da70845326a51082650826226a42098c3267b40814208109080c60440208137044ea26cd12712708480265a009a1f265ad,
  0x28bd928bf5277842778508954256830894d08965088e6088bf0888704f450886e05a02274220882d23d8f2f9bc086a0218d805ae4218a105b2b21840,
  0x059f0077c30599a27ddc08ce908c9f09d6d21845070c407129065d4242840922b05f4d2944808a1c08a3d037f2046cf046f5084a303ead289f928b9c,
  0x09404091bb049060557109097090bb2492f036b509be9217da06e8b06f790489b2232106fbb06c58042f408f4a08f3024c0908ea708e2a036d40436e,
  0x28e6528e6628ee70968f2322503ee7243ea24a42248ff03ec20744528d340959609597095a70959908a2b084e528c3b28c1d0942728afc0406228a4b,
  0x073f90493c08b6905b11092ba263be28b2f28c2628989093680975d257df2909304a1d06847290b00974103efc0746b0741223fee24a78249ed03ecc,
  0x0993b08414049250922a03f0028a45098dc28b6424a6728b50044c0091e5295d7092f6294da0981f24ab228bc505dc120f2609938097710979b2421b,
  0x249b80582221302058720937d04b9704bbd099bc2994804b90298f109a2f05afe09a2106a8f258c828b6509a5c099aa04b6f0999b03dfd27b060994d,
  0x09d212a0fe2a1f509b9f29e2d09bcf09b7f09c1009c3509c7b09c5309c4f061072296b2278106150039270945803d7d068c523db82271f07844214e8,
  0x26064237d726e00085ee0842026df026e8426da404533085fc26b8226fdf26e12084bd09da52992f2a0f32a0ed2a1b409d0c04cb009e182410404cae,
  0x24941231c9217570784b078b6078540783d2555d090640344004fe40944d09277078b9202bf09348092be093db03d62249de0492d236402359c079e2,
  0x05ace0610c28a49217b505b2824f9726c40071eb241ac034af07134057d709d160578a058f3057bb241b5054140701e0701e06fd906fda04f720369a,
  0x2498b249b9260a42615b07da82674123db705994243c122c26242fa2141326cc00847220f1d218d6093b8093bb289fc04b7b0372c24488042bc05a0b,
  0x24976070a52491607448249e521424203a724a66217d924a9424a3e03ed6073fb073f306ad824ab303ee12189f28b63074b403ee9073e2092e5289fa,
  0x216c207dfe217fa079c40550220cb820beb2061a056a420cff249430716b28a8204935255d528be70938628a1628ace09331204fe0935f073e609284,
  0x0398a04a9620ab403ccd093742186228a8105a790925f036b023d5b036e205aa12748421883218bf059b0249ad28ac00370a094010452e2185224a50,
  0x034c8036bc07551203f503d6f06f0c06e0223e2d23fed03cd606caf0706727e4f06d57044eb290e406e0f28218042fb071752139c03d4c03d69050f4,
  0x27bf4234e52139806967068b9223bd212b022fe324a7124362070fe21452036d6057c80581226bc028c1c08f410493e0926e059c40487103eda04680,
  0x05989217db2705326c80083ed2173a0833d2710906f1726fde26c8226d5126d26044ce044df0843e26cb7236ad06a1a24c9f233fa237d628a83236df,
  0x242590711d242ca2445b2773623ef906a2b2429305a2b05a6e242a50669a093900718e036c72173c059ef0372d241fc2190505a7105a61217b305a82,
  0x217df24a5d05f5c03df305d2f059eb07e6524a4f2f82506cdf03da5243e907133070a6213042425606a0c243bd27e4d244ce05cc226d2804fb0289e1,
  0x27af407310072cd07fe704fc82942028a5907cd30738f05d702915b070032a2b621f9e03fe520619208d50577e202142330023afa054850842607da4,
  0x03efa03ef403ef003ee20741f0741e07419056fd06ca203ed10770c03eca081f6073e1248f2071f50906c27b1803ea90734807341256f60733907338,
  0x04039077430401d0586908980056230718824f5c0767a03fdc0767403fd70764d03fc0075dc075c803f7c0758d075720756d0754203f5303f0e074d3,
  0x04103079320680307933255350844807866078510784707839040a80781c070b907818058f2077cb077be05c5e0406f0406a07798035db0404506761,
  0x07c7b0427a0426007c1b07c1207b7b07b6c07b6204e21041cf07adb07acf041c40827907abc041b207a910416708fbc07a0608fbb079990799104109,
  0x057b403dcc08054080310802e07b390802508020043970729f07fb407fae07dfd07dd007dd407dcf20ccf070c008f9307ced0429407cb80428c07c9c,
  0x057ef081a50442d0819304425081840817c0583a044130815a081590815603b39044010811407560081120810e0732a0810c043ed080e9080b7070a0,
  0x0853808510084f8084e1084be0450408488060e308464070f5084050698a0966908357044b0082ff082d8082ca08276082a60448f08254081e4081c1,
  0x08ab408a9408a3808a2927967089910894708924088ff088ae04617046060878b09645086ef086b2086920867204577085e0085700856f0453b08552,
  0x08fca08fc108fb708ef208eed08ee408ee208ece0483708eb0055f508e7105754055d808e3a04eee047ed08dc30585f0479808d1c08cf208cd408c51,
  0x09ebf0495104945093ad0938409343092fd092f4092f3092eb092e3092bf092ae092b10926b09258092280491e09213098e0048ad099c40903308fcc,
  0x098b9060e804ae405654097c2097b204a350974004a24067a0049e509633095f4049a7095a20952d09479094540496a0943e0942d0941d0530109417,
  0x09c2004c6d09bf409bf109bdd09b8109b6907a8309b0f09a3c04b9d099c504b70099620995d09942099370991c051b4099190990e05844098f104b19,
  0x2009409f4407ac809ef809ef109ee2094dc09ec609ebd09eb109eac09e7b08fb6094f609dfc09dc009dbd09d930565009efe09c3a09d4921bc20376f,
  0x20c3b20bfb0549e20bcb2f83b0546a20bbf20acd20ac20717305757216ba2067620615205d5037b9094c105840204d7059ac094c30691a203a0202b7,
  0x05e0b20fbc05c2020e7320f2d20f9020ed720e0e20e04087a509c2f0695520dc820db220d6f20ced20cdd20cb50567a20c8d060e720c7c20c6520c53,
  0x070bb04e78217c7217c3216192157708b812133621375212e3084ad053642113b2112f210d3210bf0364721096210882107b0671e210762104f2105c,
  0x22967082fd2294f228712272a223fa223d72227c036c8069e922045068550719821f1521ed5062c321ec821cac21c7021c2a21a4521a2d2196a2182d,
  0x230662303322fcc22f7422e4222d9522db722d1222d0825be822cb722c88fffff22c4c09abd0984722b3f097b822b0e08fa022ae8089a522ad522993,
  0x275fe23eb923e1125fe22765723aa7069180670e058b52034607e87237162361a077d7249ba07201235f32356727a79066bf0664805fb1233de2331f,
  0x2472f0399b2467405788244d62440423cff03bbe21ea80599f20611051d2205ca24a4524396243342403b2430d242ee28a9a2411904ab8048d02209a,
  0x2541925299071710573f0528f2502c08eda2077924f8624ea50596520c7824ac00720924a15248fb24812099d628b4e08b5e221c303762299c9285e8,
  0x289480477c25903060de233cc034fb050662585d2493f257c72556625562047182555e276322553f03473091d426b522546e25446055bc24aa723f4a,
  0x23fef26488249f608aea2191c2648408f3626bf705d5b2644a2640208b6224f9a261b20905627c122610206fb607151057a121d9025c0625b8925aae,
  0x264112686e26799089770361826cbd06d8f096562493404e6a266fc24521056b904fbb2f8cd05a2706195257e1094652271b266b5265bf04bc026512,
  0x26b9d083cf2351905d2c26b5b26a340798320021264690365f26a2d09a26269fa09df007a4526939091042692620a11290c007b42268c7071df2685e,
  0x0882720ef8274500949f06c39249d0272e6093302728b2217a09281272852728003c54271cd2704b2258d0371c058b626dae088650753b26ca4046d0,
  0x280e82372f039a12160a040df056d627858277cc08943298a429cad066b60453f079e305c10036b9039a42182024a2a06eb8217b12847322926088f5,
  0x093bf26e07053a22831806a032a2df06fb5280090797e07b432417a27d6627b0b27a0a279fd289ab270af04cb705a67291a8279dd08366071ad213c5,
  0x280900673603c1123f8124aa5053d2069d5065be2498805dab2894909823057152808328c3005d85280482322f213ed269b5280232816f0975d06836,
  0x28b46289e8043df289e7043f2289b8092550780828956063e6048fa286aa28468035ca2838a2832f283062821a281af281892814f21fa12812e280f4,
  0x299c32996a29949298d129732295b8295b0295e9294e70568b0728f08fd024aca2915e03df72913c2911007b51290ec28fc508f0b28c09059f828bd4,
  0x0450924a9308fb9224b008fba055c108fbe20c9c04d9c2a5cb0901204d912a2ff071a22a2930954704ca429f2329ef807e9f29d9b29d5a29b0e29a28,
  0x056bf2625825e8104e9a259562563523cb72765503deb266af27a3e28b9928b6c28024217f508e800373a2789d28b2c034e404eea06ab106f5607e7f,
  0x0877023d400597525ed807f490561e0562204c7d29d9803dc6253110541a25c4a0562d065302187b217f6062d0063de24c9e23e8805b6d08e0e20e6d,
  0x20e9d054160564307962055ea080bd084180813205625082f7081480543209345077b90764e09c450763b08d1809d5e08117236ba20d4920fea04e1c,
  0x0976d0629d21075055de07d5a09eab20ea222c6220e762514805ed020c9620c410557205497055ba055f0075340362d282e2066f1055f105605035ce,
  0x08804080b6075b12688a08e2d07666055130551e0544d051a720da7034df0519a22eb309c7222b4305569063fe063b9063fc09176071f608ccd05494,
  0x20eac2a6a923cfc09208211d909170272b626ed027d73241a327d2f226f40567b268930830b05b902470607304044ec210c10841c081b6088c708786,
  0x07e8e071a32118726048fffff20fed275a30606220e0a20fec29d7c247e0048f322da00651f09c5d040fa20feb27ff924fc20474e21ca20726620ef9,
  0x29eac073742246503a52fffff2097925a95057aa0544b0822d24b6e0589a24618036a50537d039dc036ac0536706cb205b0d0357704e0404e1a09d50,
  0x2048e045e90367a03e74052cc0900803a2a23e2c23ef707d250632e23720267b3272b223db60845c29fde2959e24fa904c5b29f3023cfe09bed04d09,
  0x24963057a7212a90565dfffff243f2230da06119037fb075f904ce109e852a4340765405d7409b8b0567c040bf058a727f2e0787a20eb605af007640,
  0x05d8e21f0f051fefffff20d7124ae226d2220d28086ad2716426335294d0064d305c532176c057de09b3907c5609d7c06c4a035ad270ae0523429e06,
  0x09f5a2493e09c1b09f1709b0907bfc09c1507c8607c4209b2e07c7e09b2a07bcf09aff063350626807ba305cd109b0207b1f0904c09e8121dd109703,
  0x09c0a053da0692c061300532c097ba09940097b40546908f5c09dab097c805e12059b70505605767052d103e060526004ff209e9804ffd05bc305573,
  0x203fc062850757a0918e0561106aca26d230637f28e9709151fffff0915c0968109159fffff05273099da2176d07546050a6069800964104c3b09d02,
  0x0549c04f39201f206c3104ece05df50521f0577a050ed069c005c4afffff08842083be20cd404e2a09b9d076d624919fffff23cfd25c2107c700734f,
  0x05620fffff07f780881806bfafffff07b140717a09e8409ea809aba098b40982e09b9709fa50917c06b52fffff035f305f0c035fe08d820529a054da,
  0x075c3087d606cce09f2628a5a0760708a6706cea078d807a3e24a7707ad308e7508e282837d0628208e0109e1c08e4f08dd4fffff09f5308e772a64a,
  0x07667060fdfffff2251b08a7efffff26e052183bfffff044b7088a005fba0862f24abb08ceb074f10730208b2d07371072e208d0c2f840078532a2b2,
  0x0616f0575ffffff0617d09e9604c0406159261590994a07c5104c07072b2035d609bb0097210732c08cf70880ffffff087f509b8f0936e09d4409ad7,
  0x077fefffff0406520f3b09638053320790621d46050d9fffff28e3908fda28bc205d57035d20680206364233f5053aa061e203a5c062ce06239062a6,
  0x087a926ed107553267cc089890772408103074f00805b27486080620670c0821a08994074f20750507d4d080630806607a2d07cda25f1a07cc2fffff,
  0x03cd10619c060a40717603ddb074e724011087c106db907468089a9fffff08da6069b203635084da074f80772b08b4308cad08a490878c081c8087ce,
  0x200ee2367728a0f261ad05cc1270ad26ddc29903212fe21944255312765625ed723cc703c180522004b7e060e90725028b2d07f71fffff0607707162,
  0x0fe520fe510fe5002025020260fe300ff010ff1f0ff1a0ff1b020270ff0e03002030010ff0c030002626b09ea609f502634c05b1f0456224f0e26846,
  0x0fe3903015030140fe380fe370ff5d0ff5b0fe360fe350ff090ff080fe4f0fe34025740fe33020140fe31020130ff5c0fe570fe560fe550fe54000b7,
  0x0fe5b0fe5a0fe590fe440fe430300f0300e0fe420fe410300d0300c0fe400fe3f03009030080fe3e0fe3d0300b0300a0fe3c0fe3b03011030100fe3a,
  0x0260502606025ce025b2025b3025cf025cb03003000a70203b0ff0a0ff060ff0302032020350301e0301d0201d0201c02019020180fe5e0fe5d0fe5c,
  0x000d70ff0d0ff0b0fe610fe600fe5f0fe4c0fe4b0fe4e0fe4d0fe4a0fe49002cd0ff3f0ffe3000af02105032a3025bc025bd025a0025a1025c6025c7,
  0x022bf0221f02220022a50222a022290ff5e0fe660fe650fe640fe630fe6202261022520221e0226002267022660ff1d0ff1e0ff1c0221a000b1000f7,
  0x0fe68022150ff3c0ff0f022230222502198021990219702196021920219002193021910229902295026420264002234022350222e0222b033d1033d2,
  0x0515b05159000b0033c40338f0338e033a1033ce0339e0339d0339c033d50fe6b0fe6a0fe6902109021030ff200ff050ffe10ffe0030120ffe50ff04,
  0x025340253c025890258a0258b0258c0258d0258e0258f025880258702586025850258402583025820258107cce074e9055e705163051610515d0515e,
  0x02571025e4025e5025e3025e2025610256a0255e025500256f025700256e0256d0251802514025100250c025950250202500025940251c025240252c,
  0x0302203021021690216802167021660216502164021630216202161021600ff190ff180ff170ff160ff150ff140ff130ff120ff110ff100257302572,
  0x0ff2e0ff2d0ff2c0ff2b0ff2a0ff290ff280ff270ff260ff250ff240ff230ff220ff2105345053440534103029030280302703026030250302403023,
  0x0ff4c0ff4b0ff4a0ff490ff480ff470ff460ff450ff440ff430ff420ff410ff3a0ff390ff380ff370ff360ff350ff340ff330ff320ff310ff300ff2f,
  0x0039a0039900398003970039600395003940039300392003910ff5a0ff590ff580ff570ff560ff550ff540ff530ff520ff510ff500ff4f0ff4e0ff4d,
  0x003ba003b9003b8003b7003b6003b5003b4003b3003b2003b1003a9003a8003a7003a6003a5003a4003a3003a1003a00039f0039e0039d0039c0039b,
  0x0310e0310d0310c0310b0310a0310903108031070310603105003c9003c8003c7003c6003c5003c4003c3003c1003c0003bf003be003bd003bc003bb,
  0x031260312503124031230312203121031200311f0311e0311d0311c0311b0311a031190311803117031160311503114031130311203111031100310f,
  0x0240f0240e0240d0240c0240b0240a02409024080240702406024050240402403024020240102400002cb002c7002ca002c9002d9031290312803127,
  0xffffffffffffffffffffffffffffff020ac024210241f0241e0241d0241c0241b0241a02419024180241702416024150241402413024120241102410,
  0x04e00fffffffffffffffffffffffffffffffffffffffffffffffffffffffffffffffffffffffffffffffffffffffffffffffffffffffffffffffffff,
  0x04e2b04e0a04e0804e0b04e09053c80535c05341053150529b0520105200051e00516b051650513f04eba04e8c04e8604e5d04e4304e0304e0104e59,
  0x05c0f05bf805b5305b5105b50059730592705915058eb0571f053e3053c905343052fa052030514004ea104e8e04e5e04e5f04e4804e45051e104e38,
  0x04e9104e8805c3904e4b04e3904e3004e2d04e0d04e1004e110624d05f1305f0b05efe05e7205dfe05df305df205df105de505ddd05c7105c3805c22,
  0x052080520705206051f6051970516c0516e0516d05167051410514304ec404ecb04eca04ecd04ec704ec604ec304ec004ec104ea204e9404e9204e95,
  0x05df405c6f05c3a05c2405c1105b540592d0592a0592b05929058ec053cd053ca053cb053840535e0534505347053480533905316052ff052fe052fb,
  0x06bdb06bd406bcb06b7906b6206b200672806708066f0065e5065b9065a406597065870652f0624e0624b062360620805fc305f1505f1405eff05e7b,
  0x04ed504ed404ed804ee504e4e04e4f04e4d04e3b04e1804e1404e1504e1604e190738b072ac0725b07259072470723b072360722a0706b06c3406c0f,
  0x053490534a04edf0531d0531705306053050529f052a00520a051f8051fa051f9051ac0518a05189051440514504ede04ed904ee404ee304ed704ed6,
  0x053fb053ed053e5053f0053f1053f2053ea053e6053eb053f5053f8053fc053e8053e9053ee053ec053f3053e4053ef053bb0536e0536f0536005361,
  0x06254062530620a05fc505f1705f1805f0105e7c05e7305e0305e0205de605de705de805c3c05b8305b550597605974059310592e05916056da056db,
  0x0751f07518074e6074dc0738907384072af06c3e06c4006c4106c3806c1006c1106bcd06b630672d0672b0672a0672c0672e065e6065a50625106252,
  0x04e9904e6904e5304e5204e1f04e1e07acb07a74079be0793a077f3077e2077db076ee076bf076ae0767d0758b075330753207531075300752907528,
  0x0514805146051470514904f0b04f0104efd04ef304ef004efb04ef604ef204f0f04f1104f1004f0d04f1504f0a04f1904f0904eff04ea504ea604ea4,
  0x05411054040540b05401054100540a0540c0540f054090537105370053200532105308052a3052160520e052120521105217051b00518d0517105168,
  0x0597d05983059780598405938059370591a05919057290572f0572c0572d057280573005733056dd056de056e005412054060540e05403054080540d,
  0x062100620d0620c0620e05fd605fd905f1b05f0f05e7405e7605e0605dde05c7905c1605bfa05b8905b8505b8805b8705b5805b57059810598205979,
  0x06c6006c5f06c5906c5706c5d06c1606b7b06b6406b210673506731067340673d06709066f3066f2065ed065ec065e8065e906536062580625b06263,
  0x0808b080890807f08033080120800c080030800107fbd07f8a07f3607cf807c7307af90767e0725d0725f0707006c4e06c4d06c5b06c6106c5506c50,
  0x04f5e04f5704f4704f4f04f4d04ea804e32096210897f088630884c088400866b0827e082720826e0821f0821b0820c081fc081f3081ea081e30808c,
  0x0514c04f5a04f4804f5d04f5904f3604f4e04f2f04f6004f5c04f6304f4604f3c04f5404f4304f3804f3a04f3d04f5104f5004f3004f5504f5b04f34,
  0x054270544e054260543e0541e0542d0541d053750537305323052ac052aa052a9052ab052280522a052290522405225051b7051b6051750514d0514b,
  0x056e4056f0056ea0542c0541f0542b05431054400543c0542005436054350542e054380543b054390544a054290541b0544205448054330544305446,
  0x0598a05993059a40598d0599605999059a30599e059a8059920599d0593e058ef0573b0574f057500573e0574e057470574d05740057510574a056eb,
  0x05f0405ef705e8a05e8705e8f05e0c05deb05c8c05c9405c9105c9005c3e05c3f05c4105c4005c2c05b8f05b8b05b8c05b5b05b5a05b5c05b5d059a5,
  0x0627c0628a0626d062890627606280062960629706284062110621205fea05ff805feb05ff105fcd05fd705fcc05fd805f7905f7705f6205f6405f1f,
  0x0675e067560675c06751067500674f0674e0675f066f4065f1065380653b06539062860629106293062950626e062980626f0629206273062790627e,
  0x06c7d06c9206c9606c6806c8c06c7006c9006c7a06c6a06c9b06c8506c8906c8806c8106c9906c5e06c4206bcf06b650675706753067600674606749,
  0x07538075370752b0752c07396072c2072c4072600726107262070780707d0707c0707606c8206c9806c9406c8d06c7606c8606c7406c7e06c7206c83,
  0x08c3708a00089d20898b0828d0828b082920826f080b20809a0809b080980809d080930809607f5507cfb07a76079bf079c0079c1077e3076ef07682,
  0x09632091cc091c609149090a3090a6090aa090a20909105de108fc408fc508fc608fc208fb008f9b08eca08eab08db308d7008d6408c9d08c5508c46,
  0x04f7504f7004f8304f8604f8b04f9b04f6c04f7f04f7304f8d04f9d04f6f04eac04eab04e9e04e9b04e8b04e7304e5604e260962c0962a096310962e,
  0x052360522e052300523a05237052380523b051fd051bd0517805176051770516905155051520515404f7a04f9104f8f04f7e04f9604f7b04f6904f88,
  0x0549205484054770547b054800549505478054960547505473053d7053d4053d60537905378053770536605351053530535405352052bb052be05241,
  0x05947059490591c0577c057640576605761057690576a0577705783056fa0548e0547d0548b05468054620549a0548c0547605471054900547c05486,
  0x05b9a05b9705b6305b6405b5f059c5059d2059b3059af059ca059d3059cb059cd059d0059c6059d1059ae059b9059d4059bb059be059540594405948,
  0x05e9705e9a05e7805e1105e1b05e1505e1605e1a05e1805cb305cb105cab05ca905cb805ca105cb705c4605c4505c4805c1a05b9b05b9905b9c05b98,
  0x06021060150602a06016060350602f060140600f05fff05ff505ffd05fe005fdd05f7c05f7f05f8105f8005f2905f2705f2605ef605e9605e9505e9c,
  0x062a8062c8062cb062d4062d3062ab062db062d2062b9062c2062bf062c4062cc062c90627f062400623e0623f06215062160601b0602b0602906027,
  0x06602066060660c0661306614065fa065bc065a70653e062ce062ac062c6062d7062d6062d8062b1062da062b5062cd062c7062d9062d0062bc062bd,
  0x067900677e067890677f067700676f067970679d0678706777067730679c06771067950678b0676d0670b0670d066070660a066150660f066000660e,
  0x06cab06ce206cbc06cbe06cbd06cb306ce506ccc06cb106cf306ce806ce306c1b06c1306b7f06b6706b6606b23067720676a0677c067930679a06775,
  0x0708a070920708e0709506ce006cd606cdc06cef06cac06cca06cdb06ce106cbb06cbf06cf106cc506cd706cae06cc106cb906cc406cb806cd306cd5,
  0x076f2076c2076840759a075990759d0753d073a5073ab0739f073a8073a9072d0072d7072d9072ce072c0072690726707248072380722d0722c07099,
  0x080b4080a9080ab080a1080b1080a2080a5080ba0800507f8b07f8c07f5407cfe07afa07a7907a7a079c8079c907941079400793e077fd077e5076f4,
  0x0521d086710864e082b7082be082b0082a3082b8082af082a5082ac082b1082b90829f082bd082ad082990829d082b30820d081fe081e5080af080aa,
  0x04e9f0975e09752096e8096b909642096440963b0963f096400961c0958009577091d1091c7090b6090b1090b8090b508fd108fd408fce08ecb08868,
  0x04fb704fde04fce04fda04fc204fc404fd004fae04fd704fca04fdf04fd804fb604fc304fdd04fcf04fd104fe004fbf04faf04fb504fe104eae04ead,
  0x054ce054a8054c0054ac053db0539a0537b053570530d052c1052c3052c9052c7052470524b0524c0524d0524a052430524e051a0051910519205157,
  0x057a2057a3057a00578b05782056ff054bf054a7054a9054bb054b1054ab054af054c8054c4054c1054aa054bd054c2054c7054b3054a6054b8054c9,
  0x05ba405ba605ba305b69059fb05a01059e6059da059ea059e505a03059e8059e3059ff059d8059dc059500594e0594f059510595505793057ae057ce,
  0x05f8b05f8a05f8505f8805f6505f2d05f0805efa05ea605ea005e7d05e1f05e2505e1d05df705cd205cd905c4b05c4d05c4f05c4e05c0105ba505ba2,
  0x062fc0630906316062dc06241060640606a0606b0606c06043060460606206068060700604d060280600e06025060200601d0601205f8905f8c05f87,
  0x0661f0662f06627066200662d06625065e2065bd065ab065450653f0630206311062f4062fe062ec062ef062f7062f106307062fd062ee06301062ed,
  0x067f3067de067cf067b8067e5067da067b4067d1067c4067ef067e9067f5067af067b6067ec067d0067d4067f1067d3067ff066f7066240663106628,
  0x06d3d06d3b06d1706d1e06d3106d0c06d2506d4106d2a06d3206d0b06cc906c1f06bd706bd206bb506b8606b8306b6a067d2067dd067e2067d9067b0,
  0x0726f0727207230070a4070ae070b8070ad070af070ac070b3070ba070ab06d2b06d0e06d3506d2e06d2906d3806d2706d3906cf506d1b06d3606d3e,
  0x0768607678075a3075a2075a5075a4075ab0754b0754e0754c0754f0752d0751a073b3073c0073cd073b2073bb073ca073b7072e1072e0072e907274,
  0x079b9079470794807949079460780d0780c0781407802077dc07707076fc076fe0770b07709076f8076f907701076c5076c3076c6076c80768807687,
  0x08036080110800d080100800407fbf07f8e07f3807d0607d0407d0707d0907d0007d0507d0207c7d07afd07aff07a8107a7f079cb079d2079d1079ba,
  0x0830908302082e508304082e6082db082e30830508303082e708222081f4080dd080e4080de080ce080db080e1080cc080c4080c3080da080e5080d6,
  0x08c9e08a0308a0208a08089d4089810886b0884d0867a0867b086790865008306082ef082df082d3082de082d1082d4082dc08301082f1082d7082d2,
  0x0965009582091cd0914a0914b090c3090c1090ce090ca08fe808fe408feb08fed08fe508fea08fe208fe608ff008ecc08ecd08db408d7308d7408ca0,
  0x0502904ff8050250502604fef050230500d0500c04eb304e580999909996098df098db098a809801097f3097ed097cb09769097620964d0964c0964b,
  0x0517c050090502b04ffe0502a0502d04fee04ff305018050190500b0502104ff105028050140500004ffa05011050120501a0501f0503c0500605016,
  0x054f2054e5054fc055370550105510054e8053df0539d0539f0537f0532a0525d0525b052540525c05256051cb051c6051cc051cd051a2051a5051a4,
  0x05958059570590f05809057c3057cb057d4057c205704057030550f054fd0550705527054e6054ea054ee05509054e1054ed054e905514054fa05506,
  0x05bb805bb905bb505bae05bb405bb605bb305bb005c5805b6b05a0905a0c05a2505a2905a2305a20059ec05a1305a1b05a1f05a1c05a1805a110595a,
  0x0605905f9005f9105f9205f3105ea705ead05eab05e2b05e2d05dee05cf405d0105cf605cf005ce805cea05cfb05cfd05ced05c5005c5505c5105c04,
  0x06342063550632f0633e0634e062ff06308062f30624706096060850608c060940608d0609a0609f060840606f060690606d06055060500606506063,
  0x06641066450664c06652066430664f0664906642065c5065c10659906549065480634c0634d063280632b0632a0633d063500633a063490634f06346,
  0x0682a068430683c0684006850067f40683d068510684c06817068b3068290685406842068390685306846068480683806821067170671506714066f8,
  0x06d8906d6c06d9306d5906d7706d7806d6606d8706d8806d9506d6a06cf006c2406c2606c2806c2706c2306bb706b8906b8a06841068180681306845,
  0x07386072f7072f8072fd072f9072fc0727907239070cf070c8070d9070e4070d8070ca06d9406d6506d8506d7906d8a06d8c06d6906d7406d5a06d6e,
  0x076ca076b00768b075b8075c2075b9075bc075bd075b3075b2075c7075c5075be075590755a0755c0755d07554073de073ea073e0073ee07409073ed,
  0x0795e079560795f079600795007955078320781f078200782d0782507837078340781d078380782707830077e907728077200771f07729076ce076cd,
  0x07d1007d1407d2207d2007d0a07d0b07d1707d2107c8907b1107b0607ad907a8807a84079d8079e9079e6079df079e7079e3079e40795a079570795d,
  0x080f4080ed08105080f008102080f10803f0803d080170801908015080180800607fc107fc507f9407f5f07f3a07d1b07d1907d0d07d1c07d1a07d15,
  0x0834908350083380834a08354083520832b082bb0822c082280822b0822a0821008200081ec081ed080ef080fc0810a080fd08108080f3080f808106,
  0x088820888108877088700869c086a30868c086a9086a408693086aa0868a0865408343083280833108340083170833608339083320834f0833408335,
  0x08fb108ecf08ed408ed208eac08d7708ca208ca108c7908c7a08c4808a1108a0f08a1608a1308a1708a0a08a1508a0c08a0e08a1008a18088790887d,
  0x0966209583091d9091dc091d7091dd091d80914c0914d09152090e2090dd090e10909508ff80900508ffd0900308ff408ffa0900008ff70900609001,
  0x050490505a0504c05043050470505c0507d0507a04e7e09b3c09b3209b2509ad809aa8099ac098e2096bb0965e09658096640965d0965b0966109663,
  0x0533f053190530f05310052d5052d8052d9052d20526f0526a051f0051950515c0506d0506f0500f0504f050770507405075050550504e0507605065,
  0x05533055630552c0555c0552e05538055640552f055550554f05556055310554a05543055610555e05544055660556a05546066fc053c30533e05340,
  0x05a4005a6a05a6605a4905a4105a360596205920057f9057f70583505802057fa057e4057e0058060580a05805057df057090570b057080555705541,
  0x05d2205d1605d1b05d0e05d0605d0705c5d05c5c05c6005c0705c0805c0905bc605bbf05bc205bc405bc505bc705b7005a4a05a4605a5a05a6205a3c,
  0x05f9705f6b05f6905f6c05f5705f3705f3505ebe05eb505eb605eb805eb705e3705e3305e3605e3805de205d1705d2705d2405d1905d1405d2905d11,
  0x060df060c6060d5060d8060bc060dc060b5060bb060c5060bd060e6060b4060cb060a8060a006089060a30607f05f9c05fa005fa105f9805f9e05f99,
  0x06384063a80636b0639b0638306389063a906371063aa063980636706377063a5063a20639606372063a7063a0062480621b0621a060c7060da060b8,
  0x065ac0659b0659c0655406555065580654f0555f065570655906551065560655d0637a06368063690637b063800638f06392063ac063a10639906388,
  0x068b006897068a7068b1068760687f068b506893068a2068af068810671b052d7066f90665e0666606668066640665a0665d065ce065cc065cb065cf,
  0x06de406dcc06de106db206dd906df306dbc06d8e06c2b06bec06beb06bba06b3206882068a10689f068a80689d068940688506886068ad068c406883,
  0x06de806dee06df106dea06dd806deb06dda06db506e1a06dd206dc506df506df706db806df906dde06dae06dd106daf06dcb06dc706e0506dfa06dfb,
  0x07406074030740a07405073870731907313073160731b0731c072810727d0723d070ef070fd0710a07109070f906de606dbf06dec06daa06dc406dc6,
  0x0773c0773e07737076db076d2076d40768e075cd075ca075b5075d5075d40758f07570075620756607565075220751c074f7074f6074e00740d073fe,
  0x07d4607c9507c9707c9207b2e07b1e07b1907b2607b2c07b1b07b2807b2007a9507a92079fb0796d07968079650784e078430786b0773a0773807736,
  0x081160812f080460804a0801c07fd207fce07fcc07f9a07f9e07f3d07d3107d3207d4207d2f07d4407d3307d3007d4007d3c07d3907d2e07d7107d43,
  0x08377083a008389083930838a08392083ab083bd08396083a208378083980839e0838e08239082360823708235082020812408130081290812b08123,
  0x0888b0888d0889608892088ab088880889e08853086c9086af086b1086cb086c6086b5086c4086b6086c0086c705f6a08655083a7083860837c0837b,
  0x08edb08dba08dbe08d6608d6708ca708caa08ca808cab08cac08ca908c5a08c4908a2208a1b08a1f08a2d08a3108a2508a2308a1d08a2a0898f08993,
  0x091e6091f5091ce09157090fd090ed090e8090140901b09016090220900f090200901e09015090100901d0901f09023090170901a0900d0901908edf,
  0x09e7509ce509b5a098030980207adf07ae0096e9096ea096c00966c096770967609674096700967809673096750966a09589091e9091ed091e7091e3,
  0x0557b053a50535a052db052dd052de05269052750527405272051f1067000509a0509805096050800509105099050850508d050a209ebb09ea509e7f,
  0x055890557e055b1055ac055bb0559a055b20553e0559f055ae055b3055830558b0558705594055aa0559c05582055980559d0558a0557c055a705580,
  0x05bd205b7105b7305aa705a9b05a9205a7f05a9a05a7705960058fa058f9058200581d05821058310583005824058340582a0582f0570d05599055ab,
  0x05faa05fa905f6d05f3c05ec405ec205ec105eca05e7e05e4305e4005e3d05e4505dfd05d4705d3405d5005d4c05c3105c0b05c0a05bd005bd305bcc,
  0x0638c063a3062490621f061120610006109060f60610e060f106168060f4060fb060f006115060fa061230611c060e0060b6060b2060e1060d105fa8,
  0x0656306562065660655e063f9063da06452063db063ea063f406376063ee063ed063d6063e1063d0063e3063d2063cd063c6063c9063e9063c0063cf,
  0x068f5068df06905068d7068d8068e0068d5068fa0671d0671f066ff066fe066770667e0667a066910666f0667606674066700666e065af0659006591,
  0x06c2f06c2e06bef06bbc06b9606b9806b3d06b3a06b3e068fb0696e068da068c90690e069120690d068cd068cb068e3068f2068d2068f9068e7068ee,
  0x06e2c06e3a06e4d06e3406e6f06e2606e2d06e6e06e5606e2406e5806e5b06e1b06e2306e2506e2006e4a06e6706e3206e2106e5406e3806e2f06c2c,
  0x0733607280072840724c0711c0716e071360712107130071260711a0711906e5f06e6906e7206e4406e6306e4e06e1906e8906ecb06e3e06e1d06e43,
  0x075d8075d9075e3075db075e20756a0756b075260752507428074260741b0742f0743407436074350742507422074330742a0743a073290733407325,
  0x07b4907ae307ae507a9607a9707a9807a0007a0507a0b07a0807a0d0786f0786c0785d077ed0774f076dc076b407693076960767c0767b075e0075de,
  0x0558407d7307d7007d6207d6607d6107d7207d6e07d2b07d5507d6807d5007d5e07ca507c9f07b5107b4f07b4b07b4d07b5407b5207b5007b4607b56,
  0x083c5083e00840d083f808403083e90821c0821208174081530814c0813e08146081390814e081510814b081540815508085080520800b07fd507fd4,
  0x086ed086d9086df0865b083df083d408407083dc084040840e08438083ca083f2083fd083cc0840c083f00840a08457083f4083f1083ef083c10840b,
  0x08a3608a3a08a3408a4608a5008a5b08a5408a4108a3c08a5e08a5508a6008a3b0899608983088b1088c2088c108857086de086d0086e4086db086d4,
  0x08dcc08dd108dda08dcb08ddd08dce08d8108d8508d8a08cb808cbf08cb608cb708cb408cc008cbb08cc108cbd08cb308cbc08caf08c8208c6108a56,
  0x0921e09209092230921509214091cf0916509163090fe09109090f50910209036090320903809031090350902e08f9c08efc08ef808efb08dc608ddb,
  0x096c6096c4096c5096c109684096720968d09686096850967d0968b0968e0968a0958e0959209593095910958b0958f095940921109207092100920d,
  0x050c5050b3050b2050b5050ad04e8209ed109ecd09ec3099ad099ae098ed098f2098e9098ef098ea098e7098080980609805097cc096f2096ef096c7,
  0x055e3055d1055c7055dc055ce055e6055d3055e8055df0532f052e3052e2052e4052e6052df0527d052770527f050c7050af050bb050b7050ac050be,
  0x059670584b05852058620584a0586d0584c0586b058540585a0585705858058510585e0571305712055c9055e5055c6055c5055e1055da055ef055e4,
  0x060f30611f061480610f0611a05fae05fac05f5905f1205ec805ec905e7905e4c05d6f05d6905ab205ac205ab305abc05abd05abe05acc05ac905ac1,
  0x0640f0642c0643d0642d0642a0641e0643e06413062220622106137061060610d06127061340613e0614d061440614c0614e0610806101060f90611b,
  0x06960069770695a0696d06994067030668d06698066840669606688066870668906697065b00659f0656c064060641706416064360640d064140641c,
  0x06eb606ed306eaf06ea206bfd06bd306bbf06bc006b7206b470695b069630695d0698606979069530695e0696b069680694a06982069300697506954,
  0x07167071490716407169071590714e06eb406ea706eaa06ed406ec406e9c06e9606ed106eab06eba06ebc06e9806ea506ec506ec706e9d06e9006ec2,
  0x0745b074590743f074410745e0745f074550745a0746f0733e0733f0734507337072520723a0715607168071460715e071650714c071660716c0715c,
  0x077650775c0776c0776a07779077630775e077660776b0775b076df076de075f3075f4075ff075fa075f1075f207601075f00760007578075760745c,
  0x07a1e07a1f07a1407a2007a1a07a1c079bd0842c079810797f0797a0787f07893078910787c078890788c0789807897078b00788e077ee0776207768,
  0x0805607fa407fa807fa907f7207f6a07f6907f6e07d5b07d8f07d8107d9107d7907d9307cb507cb307cb107b6707b6e07b6007bc007b7707aa007a9f,
  0x0846c084490846b0846608475084310843d08477084820824708205081660817a081790816b081730816e08165081780817008171080840808608058,
  0x088df088590870a087060870308702086fb086fe08700087070870808713086f90865f0865c0865e084460846d084690846308461084350843c0845b,
  0x08a6d08a8508a7108aa008a6308a7c08a8708a7008a6908a6608a7308a7208a6b089e30899c088d2088d5088ca088e1088dd088d8088dc088d9088d4,
  0x08dfa08df308def08de808ddf08de108cc508cc208cc308cb208cc408cc808cc708cca08c8908c8a08c6208a6808a3e08a7b08a7908a6c08a6e08a62,
  0x0903e090510904d0904e0904f0904709050090550903c0905409042090530904a0904b08fb208f9f08f0a08efe08f0908f0308eb208de608de408dea,
  0x0925a0923f09239092450924d092490923409251092640924b0925b0923e092400923d092380925709237091c9091690916a0916c091170911209041,
  0x098fd098f4098fc0980c098120980a098130981109810097760977409756096f6096f9096fb096f7096ca096c9096cb096cd09695096940969809598,
  0x051f305162050e9050ce050f1050d1050cf050d5050da050ed050d6050e5050ee050e709f2009f1309f0e09e8209ce909ae1099b4099b1099b3098fe,
  0x0587e058750571605718055f605610056080561f05616055f70560e0560d056090560605614055fd056170561b05600055fe053ad053310528205283,
  0x05be505be105be705bde05b7505ae305ad805ad605ad705ae905ae605ae1059690596a059240592205925058fd0587d05885058790588a0589305883,
  0x061770614b0613f0614705fb905f7005f4605f0a05ed605ed305e5405e5705e5505e6305e5b05d8705d8405c6205c0d05bdf05be405be205be805be6,
  0x066a2065d6065d7065a1065720647b0646d0643406467064510647a0645f06478064a40645406458064870622a06175061580615a0615f0616306162,
  0x06c3306b4c06b49069a3069c3069a6069cc069ad069cd069d0069b4069ab069bb069b70699b069cb069d3069ae069c106995069a80699c0669d066a8,
  0x06f2a06f8806f2f06f2b06f1506f2306f3206f3806f3106f0606eef06eff06f2206f0206f0f06f2c06f2006f3e06f2906ef406f1306efe06f1406f33,
  0x0762707591075040746d074700746a0746307464073500734407296072920723e07192071840718a0717d071990719406ef706ecc06ef206f0106eec,
  0x07aed07aa907aaa07a3107a2e0798d0798f0798e078a3078a9078b3078a70789f078c1077610777f0777d07784076e3076e107613076090760b0760d,
  0x07db207db407dca07da007dbe07dbd07d9c07db007dbb07cbe07cbd07cb907b8407b8707bb807b8f07b9407b9d07b9707b7507b8b07b9507ba107aef,
  0x081820817f0818a081880818f0818008150080870805a0805e07fdf07fe107fe007f7007dac07dc707dd207dad07db807db507dbf07da207dba07db1,
  0x0871c0873f084ca084d1084bc08490084d3084c0084b8084cb0849c084b20849e08499084c4084c6084bf084c90824b0821e0821408207081fa081e7,
  0x08a9308aa108a8d08aa308a9e08a8c08aa6088ef0891a088e8088fd088f8088f9088f408902088f3087290873708755087180873408725087220873b,
  0x0906008fa308f1308f1508f1208f1408dfc08d9508d9908d6b08cd208cd108cd308c8c08c8d08c6a08aa708a9a08a9108a9808aa808aa508aaa08aa4,
  0x092a80929c092930927b0929609298092850928009278091740917709178091750911e09118091190905b0905d090620905e09059090630905c09058,
  0x0990c0990509903098b1098af0981809817097f6097850977c09700096d2096cc0969b0969c09699095a4095a5095a3095a9095a8095a1092910927c,
  0x05287051dc05105051090510805102050f9050f5050fb051000510409f4a09f3b09ebc09cf309cf609cf409b4209b4109ae609ab009aaf099c109909,
  0x058b30589e0589f05880056300562f0563605674056570564e0565305629056340563f05632056390563b0562e053b2052f00528a0528d0528905288,
  0x05eda05ee205e6105e5f05e6205d9405d9d05c6505c6405beb05be905bec05bee05b0805b0c05af505b0b05afb05b090596d058a6058a9058ae0589c,
  0x0619a061ac0618e061ab06190061a70617e0616b061700617c06182061550615d0616e061670617605fb505fb705f7105f4805ee005ee305edd05edf,
  0x064a206499064ac0649a064ab064ad064ae06492064a90649506493064a5064b00649006488064b20649e064790646f064690622e061ae06194061a4,
  0x06b5006a11069ed06a0506a02069f306a0a06a1306a21069fd06a1906a1e06a01069e806a1f06a23066b1066b4066ab066ae065780657706575064b3,
  0x06f6006f6f06ed506f5806f9706f6406f7006f7a06f8e06f6e06f7806f5b06f6d06f8606f5406f6606f5106f8406f7c06f3f06bc606bc506ba406b4e,
  0x076ba0769a076220762107626076240761f07629076200757f074800747e074830748b07469073570734e0729b07256071a8071b1071ac0719f06f5f,
  0x07bb107bad07aae07aaf07a3b07a3707a3d07a4007a3c07a3f078d0078bc078d5078be078ca078ba078c5078cb0778b077910778c077870778e076e4,
  0x07df907df207dd907d9e07de907dde07dda07de307de807ddd07dec07dd807dfb07def07df407de007cca07bcc07ba007bc107bc707bc607bb407bc4,
  0x08525084ec08514085210852308511085130852d0852c084ee0851a0853d08517081980819a081a00819d0819c0819b0802607fe907faf07f7707f75,
  0x08ac708ad208abc0890a08915089130891208907089100885d0885b087530874c08757087590876808778087660876008776087740878208506084ff,
  0x08ce208ced08cec08ce408ce608cde08ce008c6c08c4e08c4c08adb08ab908ab608acd08ad608ab008abf08ac208ac908ab208af808acb08a9508ac4,
  0x08f1c08f2a08f2608f2908f1f08f1b08f1d08eba08e1e08e2108e1f08e2908e0f08e2208e1d08e1008e2b08da308d9f08d6d08ce108cea08cdc08ce3,
  0x092bc092b3092c1092e4092ac092ea092b7092bb092c5091830918b091890918709131091270912d09130090770906d090680906e0906908f2508f1e,
  0x099d0099dd0991809912099130990a098b30981c0982b098210978f0978b0978d0976009709097070970609704095b1095ad092b2092f0092c7092d2,
  0x051180511209f52058a809ece09ebe09ea909d0309d0909d0609b6f09b7709b4409b4509b2709aef09aee09ab7099d9099d2099d5099d1099db099df,
  0x058c105676056620566c0566f0567105665056680566a056780566405669056790566b05659052f30529305291051dd051aa05180051150511005114,
  0x064bb064cb064c1064c506230061c8061ca061be061b6061cd0618a061a906191061b205f4a05c0e05bf005b7805b3405b1d0596e058c5058c7058be,
  0x06a3906a5806a6b06a5906a3a06a3806a3d066b8066c7066c4066b9066c9066c606574064be064d4064d2064bf064cd064c2064c7064c4064da064bc,
  0x06fa006fa606fb606fb906fc006fb306fa706fc106fa406fc306fa106fb106fc206c0506b7706b5906a4806a5f06a3506a4706a4b06a6106a6206a44,
  0x07638076340750d0750c074e20749e0749f07498074a30749c07368071c4071c3071dc071d9071ce071b9071d5071c8071d2071d0071c9071be06fb4,
  0x07be107bdb07be407bc907c1107bd907aba07a4b07a4c07a4607a4e07a4d079a6078e7078ec078da078e8077a50779f0779e077a0076e5076e70763a,
  0x08208081fb081a8081a9081b30802807fee07ff107ff007fb207f7907e1007e0907e1d07e1e07e2307e1b07e0807e1107e0a07cd607cd507be607be9,
  0x089aa089210892b08925089320892a088610878d087a20879e0879f087830855e0856a0856d0854908543085690856808548085590854a0825908258,
  0x08e3408e3108e4408cf408c9308c6d08c6b08afc08af608af308aed08af708b0208b0108afe08aee08ae708adc08b0008af108aeb08afa08ae6089a6,
  0x092fc093220932f09333092f8093360932009192091340907a0907c0907209078090740907508fa608fa808f3308f3808f2f08f3b08e3508e3908e42,
  0x09798097660975c0975b0970f097130970d09716097110970e096d5096aa096a8096a7095bb093190932e093150932109326093100931a093040932b,
  0x09d2309d1509b9109b2809aed09afb09abc09ab8099f1099e2099ed0991a099210991b0991e099280991009824098390982d098370983b0983809830,
  0x05b30058ce058d1058d3058d50568f056870568505690056800568e052f505132051210511f0512a09f9c09f8d09ed409ed809d1b09d1209d2809d26,
  0x064f0064e0064d8064ca064ce0623406232061cb061e6061c7061c2061c905fbd05f4c05e6b05db805dbd05dba05dbc05c6805c3705b7a05b2405b2a,
  0x06c0806bda06bae06b5c06aa006a9006a9706a7e06aa306adb06a9c06aa206a8406a9406a80066d6066d90658306582064ed064e2064f1064ec064e6,
  0x071e0071f4071ec071ed071e5071e6071ee071df071e706ff006fee06fd506fe906fe106fec06f8006fef06feb06fe406fdb06fe006fdf06ff106fd8,
  0x07901078ef078f4078fa078f7077ef077ad077a7077ac077b0077aa077b3076ea0764c0764207646074a8074a6074b0074a907372073700724607235,
  0x07e2b07e4307e3207e3707e4607e3e07e2e07cdd07cd907cdf07ce207cde07cdc07ce007be007c0c07bf707bfe07c0d07c0707abf07a57079aa079a7,
  0x081bf081c0081c2081ba081c3081c6080730806f08070080720807107ffc07ff307f4407e2f07e3f07e3507e4807e3907e3407e4107e4507e3107e3d,
  0x087ab087c6087d2087b3087d1087c0086670858a085a8085870859b085af08594085910859c0857e08584085aa0827108209081e8081be081c9081bd,
  0x08cfd08cfa08c7308c3f08c4108b1008b0408b1d08b2008b0a08b1b08b1908b1708b0e089ac0893d0893808944089360893b087cb087c8087ba087bb,
  0x0934d0919c0919e091a309139090800908209081090840907d0907f08f3f08f4508f4208f3e08f4408e4a08e4808e4b08e4908da808cfb08cf808cfc,
  0x097a00971e0971c096d6096b8096b1095c6095c8095cc095cb095ca093540935a093700935b0936c0937e093180934b093650934a093750932809382,
  0x058d9056ae05695053e209f4b09f3e09edb09edd09edc09ede09ecf09e8b09d3f09d3b09bad09baa09bab09bae099ff09a0109935098b609846097d3,
  0x06b5f06aaf06aae06ac206ab806abb06ac306aac06ab306726066dc065b7064f7064fb064fa06506064fe064f2064f406233061e305f5d05b38058d8,
  0x077bb077bf077bd07652076580765607515074bf074a70737507377071f8071fe071fc071fb0700f0701106ffa0700606ffe0700b0700906baf06b78,
  0x07ff907f4807e5907e5207e6107e5a07e5e07e5507e5407ce707c2107c2307c1e07c2a07c2707c2b07ac507ac407a6007a6207a61079ae0790e077bc,
  0x08b3908b28089f4089b208986087e0087f2087ec087ef085a6085b9085ba085b0085c9085d0085cd085a9085cf0820a081cf081cd080760807707ffb,
  0x093b3093a2093960938a09394091d0091ac091ab09088090830908708f4d08f4908ec008e5508e5f08e6408e6608e6308e5908d0508c5008b2b08b2c,
  0x0984e0984c0984f0984d097f9097ad097a6097a309724096de096db096d9096dc096e2095d5095d0095d6095d4093970939a09398093b0093ac093ae,
  0x09f1509ee009d6009d5d09d5109bc009bc809bfd09bc909bca09b4d09b4e09b4f09b0609b0309ac109a0e099a50992e0993d0993f0993e098ba09853,
  0x070280701f0701b06ad306ada06add06ae5066dd066e00650f06500061f5061f6061f7061f205eec09f9005bf5058e2058df058de056a50513309f2c,
  0x07c3f07c3e07a6907a6b079b107919077c7076610765f0758607587074e3074ca074bd0737a07378072a2072580720d0720607018070150701d0701a,
  0x08805087fb085f7085e5085e4085d5085ea085dd085e9081d807fb807fb907fb607e7307f8507e6a07e6907e7907e6d07e6b07c4007c3707c3d07c38,
  0x08e7a08e6c08e7608e8708e7208e7c08d0a08d0808b5908b4608b4f08b4e08b5a08b4908b5808b5c08b410895e089560895f08960087fe087f90880d,
  0x096b4095dc093e8093d7093e4093d8093cd093e2093d6093dd093dc093c8093c3093df093d1093e1091ae091b10908b0908a08fad08f4e08f5408e74,
  0x09d6c09d6a09d7209d6109d8909bdb09bd609be709be809b0d09a1909a160994909945098bc0985b098580985e097fb097dc09761097270972a096e3,
  0x06aec06727066e6065190651406518061fa061f805dc905bf605b7d05b4305b40058e4056bc056b4056b6056b7056a8052f809eb409e9309e9709e92,
  0x07f4c07e8207e7c07e7d08fae07cf007cef07c4d07c4307c4c07af607ac70792b0792c0792a079260766507662074cf0737b0721007032070300703e,
  0x08d0d08d0f08b6b08b5f08b6f08b6608b6c08b70089f8089ba0896408815088140860a086070860b08606085fa08611085f9085fb08266081da08000,
  0x09ee809eb509e7909c0d09c1309a3509a3709a3009a2b099a80995109952098c409730095e1093fd0940309418091cb091b408e8208e8508e8108e89,
  0x0721b0704c06bb206afa06b0406afb066e9065950651c0651d061fe061fc05dcd05c6c05914056c2056c0056c1051380513709f6109f6309f5f09f2f,
  0x08e8a08d1308b7d08b7708b74089bd0896c0896a0881f0882108822088230861a0862d0861707fbc07e8c07e8f07c50077d307669074d4074d6072a7,
  0x09a3e09a4009a4309a45099570986509867097ff097320973909738095e20942b09432094380943a09435094330942e091ba08faf08f5f08e8b08e8d,
  0x05f4e05dd205dd405b7f056c9056ca056c80513b0513c09f6709f6609f5c09f1909eef09e9d09db809dc209db409daf09c2509c2d09b5109b5409acf,
  0x08e9108d1708d1608b80089fc0896f08972081df0807d0807e07c5f07c60079b30766c0766e0758a074e407380070580705106b6106b0a06524061ff,
  0x09f6c09f3409dd709dd309c3b09c3e09c3109c4909b1a09ad209a4d09a55099550986b097c1097c30973e0973d0945209451094440914808f6108e93,
  0x0909008b8a088310863f08638081e207e9407e9607e9307c6507c6307c6407aca074da06b10066ec0652a0652b065230620005dd6056cc09f9409f6a,
  0x076710705e0652c058e9056d109ef409e9f09de509c5609c5709c5409ad109ad409ad309a5709a5b09a5a0995c0986f097680946409460094630908f,
  0x09df909c5f09b5809b2209a5f09870097c60974409748097420946a091c008d1b0827708b9608b9208b9308862088390883607f8807f50077d707672,
  0x077da0706409ecc09b2309ad60995e098710947009472091c108ea1089c00883b07c6e07c6c0706306b1605ef309f7209f7709f0709e7d09e7c09dfa,
  0x07c7209e1e09e1b09b3109a6a0722809e1a0947f08c5409ef709c7809c770947c0947e0947d091c508eaa08b9c07e9c09a6509a62097c90947708b9a,
  0x021730217202171021700247d0247c0247b0247a02479024780247702476024750247402469024680246702466024650246402463024620246102460,
  0x05f5005ef405e7f02f3305ddb05b800590a053b60536905338052f9051ab051960518204ea004e8504e3f04e36021790217802177021760217502174,
  0x03042030410273d0ff3d0ff3b030fc03007030060300504edd030030309e0309d030fe030fd002c6000a8096b608fb50767607592065e00653405f61,
  0x0305a030590305803057030560305503054030530305203051030500304f0304e0304d0304c0304b0304a03049030480304703046030450304403043,
  0x0307203071030700306f0306e0306d0306c0306b0306a030690306803067030660306503064030630306203061030600305f0305e0305d0305c0305b,
  0x0308a030890308803087030860308503084030830308203081030800307f0307e0307d0307c0307b0307a03079030780307703076030750307403073,
  0x030af030ae030ad030ac030ab030aa030a9030a8030a7030a6030a5030a4030a3030a2030a1030930309203091030900308f0308e0308d0308c0308b,
  0x030c7030c6030c5030c4030c3030c2030c1030c0030bf030be030bd030bc030bb030ba030b9030b8030b7030b6030b5030b4030b3030b2030b1030b0,
  0x030df030de030dd030dc030db030da030d9030d8030d7030d6030d5030d4030d3030d2030d1030d0030cf030ce030cd030cc030cb030ca030c9030c8,
  0x00410030f6030f5030f4030f3030f2030f1030f0030ef030ee030ed030ec030eb030ea030e9030e8030e7030e6030e5030e4030e3030e2030e1030e0,
  0x00427004260042500424004230042200421004200041f0041e0041d0041c0041b0041a00419004180041700416004010041500414004130041200411,
  0x0043e0043d0043c0043b0043a00439004380043700436004510043500434004330043200431004300042f0042e0042d0042c0042b0042a0042900428,
  0x2008a04e5a200cc031cf021b9021b8021e70044f0044e0044d0044c0044b0044a004490044800447004460044500444004430044200441004400043f,
  0xffffffffffffffffffffffffffffffffffffffffffffffffffffffffffffffffffffffffffffffffffffffffff2760709fb10518809fb00449105202,
  0x0ffe40ffe2ffffffffffffffffffffffffffffffffffffffffffffffffffffffffffffffffffffffffffffffffffffffffffffffffffffffffffffff,
  0x02eb602eae02eac02eaa02ea702ea502e9d02e9c02e9502e8d02e8c02e8a02e8802e8702e8602e8402e800309c0309b0212102116032310ff020ff07,
  0x0026a0028a0014b000f80015300275002540025b0025000283fffffffffffffff02ee302ede02ed702ed602ecf02ecd02ecc02eca02ec602ebe02ebc,
  0x0536c052fc0519804ec804ec904ec204e9304e2e04e0e0518704e0f05f7305c6e0fa0c056d704e8d04e4704e0c04e07053820531a051f504e5c04e42,
  0x05723057220534c0531c0520c04eda04edd04ee104ee904edc04ee804e3c04e310723f06c1406bcc06bb3065e105dff05c100592c0590305720053b9,
  0x0808a079b80738a072b0072ae06c3b06c3f06c4306c3606c15062500620905fc905e8205e8005e0405c7305c7405c3b05c1205b8405b810592f05917,
  0x05322052a6052100520905213051b104f1204ef404f0404f1304f2204f0504f0204f1d04f0804ef704f0004ef104f1404ef504f2c04f1804f0e0961e,
  0x05c7e05c7b05c7a05c7c05c2505c1505b560597f059770597e0597b059850597c059800593c057340572a0572e056df056e1054070538a0534d0531f,
  0x06738067390673e065ee065ef062650625a0626006259062620626606261062640625e0625c05fcf05fd405fd505f7405f1a05f0205e8405e7505ddf,
  0x0827807f5107a750767f0752a0738e072b5072b40725e0707106c4c06c4b06c5406c4a06c4f06c5c06c5206c4606c18067330673c0673f0673a0673b,
  0x04f5204f6704f3e04f6404f5304f4904f6204f3b04f5609623096200962409622090940909b0909809097090990897e0864d0827f0827d082800827c,
  0x05445054540542a05437054300538f0538e053720536305309052ae052ad052210521e0521c051b90518f04f6104f3f04f3304f2d04f5804f4104f5f,
  0x059a005998059a60594005906057520574b057490574c0574505741056e5056e7056ee054470542405428054410544f0543d05418054250541c05419,
  0x05e0e05e0a05de005c9505c9305c8605c8a05c9205c8905c8b05c8805c8f05c8d05c2a05c2805b9205b8e059a1059a70598f05990059a20598e05997,
  0x0600005ffb05ff705fef05ffa05fe305fe405fe105ff305fee05fe805fed05fd005fd105fd205f7605f7805f1d05f0505e8d05e8805e8c05e8905e8b,
  0x065f5065f2065f3065f4065f00653706274062720627d062770628806281062700627a0627b0627106287062940628f0628e0628c062830623a05ff4,
  0x06c6d06c9a06c6906c6f06c7106c8f06c8b06c8406c6b06c6706c7806c1a06c1906bd00674b0675a0674d0675d067480674c06755067590674706745,
  0x0753a0739207394073930739707395072c5072ba072c1072c6072c3072bd072bf072630707a0707406c8e06c7b06c6506c7306c6606c9c06c9506c87,
  0x0909f08fbf08fc908c7808284082830828a08293082910828e082850828f082900809c08092080900809908095080340793d07681075950759407539,
  0x04f6a04f9704f4c04f7704f8404f8904f7404f7604f8704f8004f7d04f8504f7c04f9804e330962d0962f0962809630090a0090a70909e090a5090a1,
  0x0530b0530a052bc0523105246052330523205235051be051bc0519e04f6e04f6b04f9504f8204f9204f9e04f9404f9c04f9004f7804f8104f7904f9a,
  0x0546405467054630549805460054610546f0548d05466054740546c054650547e0547a0546b054880548205491054810547f0548705394053920533c,
  0x059b2059ce059cf059ba059b5059450590c0577d057680576205774057730577b05775057800577605770057710576b0576d057720576f056f9056f7,
  0x05ca805caf05cb505ca005ca405cae05c4705c4405b9505b9305b6505b62059c7059b4059c8059c0059bd059b1059d6059c3059bc059b6059c1059cc,
  0x05fde05f7d05f7e05f8205f5405f2405f2305f2205f2805e1905e1405e1705ca605cb005cb605ca505c9d05ca705caa05ca205cad05ca305c9f05cac,
  0x0623d062140601c060090600c06011060130602e060100600d060220602c0601e0601a06033060170600a060340600b0603206019060260602d05fe5,
  0x06603065fb066080661206604065fc06609065bb065a80653d062b8062b0062a9062bb062af062b3062ae062ca062b6062aa062be062d1062b4062ad,
  0x06799067910679f0677a0678c0678d067740678406786067980677b06776067920678e0676c067850670a066f60661006611065fd066050660d0660b,
  0x06cba06cc206cd006cb706ce706cad06cd406cb606cd906cee06ceb06cec06c9306c1d06bde06b7e06b8006b25067940677906778067810677d06783,
  0x0709307085070980709406cd106ce906ccf06cf906cb006cc706ccd06d3006cc006cde06c8006c9d06c8a06cb406cdd06cd206cf206ced06cc606cc3,
  0x073a0073a2073a6073ad073a1073a4072d1072cc072da072d4072d2072dc072c9072d8072cb072d60726a070830709a0708207096070910708407086,
  0x07a78079c50793f07942077f7077fa077fb077f9077fc077f8076f5076f0076f1076f3076af075980758c0753e075400753f074e8074dd0739d073ac,
  0x082ba0829e082bc082ae082a7082b50829b082980829a082ab082c0082a008220080ad080b5080b8080a3080ae0808f0803507cfd07c7507afb07a7b,
  0x090af090b4090b208fd708fd508fd608fcd08fd308fcb08fd208c560866e0866d0866f08670082a2082b6082c3082a4082c2082a9082a1082a8082b4,
  0x04fc004fba04fd604fc704fdb04fb304fbb04fd904fdc04fd404fc104fcb04fc904fb204fd304fc504fcd096430963a0963c0963d09639090b0090b3,
  0x054c5054b6054d6054ae054b70830d054c3054cf054a5054ad054a1054ba053980539905396053970537c0533d052c2052c0052490524404fec04fb9,
  0x057950579a057a5057990578f05798057940579b0579d057970578c057a40579f0579e057b5054b0054de05472054be054a2054bc05470054a0054c6,
  0x059ed059f4059fe059e0059f5059f3059e9059db059f7059f2059e4059f6059fc059fd059fa059dd059f105a00059ee059de059e1059530590d058f4,
  0x05e2105df905cf805cdf05cce05cc605cc805ccf05cd405cd305cd605cca05cc705cc905cda05cde05cdb05ccb05cd705ccc05cd805cd005c4c05ba8,
  0x0605b060490604706053060450605e0607206054060390603705f8605f5605f2e05f0705ea505ea305e9b05ea205ea405eb005e2405e2005e2305e22,
  0x06300062f6062f80630c0630f062f9062eb063030630e062f50630b0630d062cf06243062420606e060660605806044060240605f06042060400604c,
  0x0662e06639066340661d0663a0662b0663306622066260661c06635066320662106636065bf065aa0654306541062f0062fb06315062fa0631406313,
  0x067c2067e3067ee067f6067f7067b3067cd067b5067df067e4067eb067c5067b7067c0067d8067f8067bb067dc067ba067c8067f2067c1067100670f,
  0x06bd806bd606bb606b8406b8206b28067cb067ea067c3067ca067c9067fa067db067e6067ae067cc067ed067c6067fc067b2067f0067e7067ce067b9,
  0x06d3706d1806d0106d4206d1d06d0006d1106d1a06d3a06d1906d0406d3306cda06d0a06d1206d3f06d3c06d1f06d2d06d3406d2806c2106c2006be0,
  0x072700726c0724a0724907241070a9070b5070b4070a1070b0070b1070be0709f070b706d1006d0906d2206d0806d2c06d2006d0706d4006d0f06d03,
  0x073c3073be073c7073bf073eb073b4073b5073b6073b9073c5073c8073c2073cc07385072e3072e6072ea072df072eb072e8072e4072ca0726e07273,
  0x0781107806077e8077e7076fa076fb076f70770a07705077040770307708076c407679075aa075a707548075470752e074ee074ec073cb073b8073c6,
  0x07c7a07b0107b0007ad107a7e07a80079ce079d6079cf079cd079d507944079450794b0794c0794a0781307803078090780e0780f078100780507812,
  0x080d0080c2080c8080d1080e0080c7080d808037080140800f0800e0800707fbe07f8d07f9107f5807d0107d0807d0307c8107c8007c7f07c7907c78,
  0x082d6082eb0833a082d508300082e808307082f9082fe082d90829408221081ff080cd080e6080d7080cf080c9080d5080ca080dc080d9080e3080c5,
  0x088690886a088670884e08841086730867c0867408677082ed082f3082fa082e0082e4082ea082f0082f6082fb0830c082f5082f2082e1082ec082f4,
  0x0964a09653096510964f09654091d3091d4090c8090cb090c7090be090c5090d5090bf090bd090f108fe008fee08fe108fe308d7208a0708a04089d3,
  0x0515a0500e050310502f0503505027050200501c0501704ff704ff60502c050370503304ff404ff50501b05030050220501305007050050501e0964e,
  0x054e4054f3054e70551205517054e2055260539e0530e052cd05262052550525f0525e052520525a05261051ce051c8051c5051c4051ca0519305194,
  0x057c6057ba057d2057d505832057cc05702057010550b055030550e054e0054f8054f7054fb0550a054f10550505511054eb0550805504054ff0551a,
  0x05bad05ba705b6c05a3305a1e05a0a05a1705a0f05a1505a2e05a2d05a1605a190594a0590e057c1057b9057d0057c7057bf057b6057b8057bc057bd,
  0x06041060670605a0605d05f6705f3005f3305eac05eaa05eae05ea805e2805e2905cf905d0005cf705cf105cee05cff05cec05c5405c5605c0305bac,
  0x063e4063430633606345063440632c0635606310062f206246062190608e0609c06087060970609b06095060830609d06081060920608006088060a2,
  0x065c4065c3065c6065460654a06348063400635706338063510635a06333063470632d0635906354063580633406341063290633c0634a0634b06339,
  0x068440684e0682f0682d0682b068350681c06831068160684f0684b0683b0683306832068490681a0681f067130671206651066470665f0664a065c2,
  0x06be206be306be806be406be606b880808206b6d06b3406b3106b2d06b2f06b2c06820068250683a0684d0682e068280682606814068120681d06834,
  0x06d7c06d7006d9706d6006d6706d5e06d8606d7f06def06d8d06d9106d6f06d6d06d6206d5806d9206d6106d0d06d7606d6406d6306d7a06c2506be7,
  0x070d2070d7070e207f39070cb070dd070d1070d3070dc06d9006d7506d7d06d7b06d8306d1606d8406d8006d7e06d8b06d6806d2f06d9806d8206d5f,
  0x073d9073d307301072fb072f3072f6072fe072f4072fa0730007276072770727807242070e1070ce070da070c7070c6070c5070cd070d4070e0070de,
  0x075c1075b00755f0755b07521074f5074f4074df074de073e8073d8073d7073da073dd073d4073db073d2073dc073e9073e3073e7073bc073d6073e5,
  0x07835078220782c0782307727077220771a077190771507711077230771207713077100771b0771d076c90768a075ba075b6075bf075c0075c4075bb,
  0x079de079dc079ea079ed079ee079e0079ec079eb0795107952079530795c0794f0795b07954078310782a0783307829078210782b0782e078280782f,
  0x07c8807c8c07c8a07c9107c8407b1207b0907b0e07b0a07b0807b0f07b0507b1307b0407b1007ad807a8707a8a07a8c07a8b07a8507a8907a86079dd,
  0x07fc007fc207fc307f9207f9607f5b07f5d07f6007f5e07f6107f5c07d0c07d0f07d1207d1f07d1307d1607d1807d0e07d1107d1d07d1e07c8507c8d,
  0x0831c08326083410833f08356083250835108319083440832d08333082250822f0820108100080fb08101080f5080f9080f2080fa080390803e08016,
  0x0865308348083270834b0832c0831e083530834c0834508347083290832f083370832008324083160834d0833c083080832a0831b0834e0834208322,
  0x0884308694086900869d0868e0869808695086a7086a108699086a5086850869a0868b0868608697086870869e086910868d08696086a8086a208652,
  0x08db608db708db508d7808d7608ca308ca408c7b08c5708c4708a120887c088740887e088830886f0887f08871088800887208876088750886d08844,
  0x0914e09150090e4090dc090d7090db090d8090e5090df090e3090da090d9090e0090d608ff608ffc0900408ffb08fff0900208ff508ffe08ed308ed1,
  0x0505b050410504d05048050720505d0504b05053050600505e050610506a0507004e7f09b2f09adf098e3096bc0965f0965c091da091e2091d50914f,
  0x0539c0532d052d3052d60526e0526c0526d0526b051d00505105057050730506e050400504605064050630506b050690505f0504505015050620504a,
  0x0554b055400553b0552d05548055390554e05565055320550c055450555205530055350553605562055510552a05534055500554d0553c0557605575,
  0x0580e057e1057ec057e5057f2057e3057ee05807057cf057f30580b057f805808057fd057ed05800057f4057dc057f6057e205814057fb057070570a,
  0x05a5305a6c05a6505a5f05a5005a6d05a3505a3805a5e05a6705a5505a5805a600595c058040580d057f0057e9057f10580c05801057e705810057fc,
  0x05bc005bc105b6e05b7205a5c05a4205a5605a5105a4705a6905a7005a4c05a3905a4d05a3e05a8e05a4805a5b05a4405a5205a5d05a4305a5705a64,
  0x05eb305eb205eb905eb405eb105e3405e3e05d2e05d1f05d2305d1205d3005d0f05d2505d2605d0d05d2805d0c05d2005d1a05d1d05d0b05d1e05c59,
  0x060c3060bf060ca060b7060db060b1060c8060dd060d9060e4060cf060d4060d3060ba060b0060be06086060900608a05f9f05f9605f9b05f3805f36,
  0x0637c063ae0636d0639c06375063af0636e06390063870636f0638e063ab063970639d063ad0639e063bd0637d063820638a0636506332060c0060cd,
  0x0686e0686d0689c06890068870687906718066620665c066590665b0666106665065cd06553063700638d063910638106385063780639f0633b063a4,
  0x068a00688b068960689b0687e0687106880068aa068720686b0687c06892068770688f068b20687406875068a9068ac068a30686f06956068ab068ae,
  0x06dac06e7406db306db406dab06dc006c2a06b8c06b8e06b8d06b8f06b9106b3806b3706b3306b360687d0688a0688c068910687b06878068a406889,
  0x06dcf06dc206dd506dba06df006ded06dbd06dca06df406ddb06ddd06ddc06de506dbe06dd606ddf06de006dc806e0006dd406df606db706de206de9,
  0x071000711307106070ff070fc07110070f307104070f00710c070f407117070f70710d070fa06dbb06de306dcd06dd706dfd06dd306df206dd006dc9,
  0x07404073f5073f8073f6073880731e0730f072ff073080730a073180731107307073170731d0727f0727c0727b0727e0710e071020710b070f6070f8,
  0x07739076d3076890768f075d0075d1075cc075cb075cf075d2075ce075630756407408073f40740b0740c073ff073fc073fa0740007407073fd07401,
  0x079630796a0796907967079640785007845078260784c0784a0784d078490785207848077350773b077250773d077330773407732077310772d0772f,
  0x07b2d07b2b07b3107b1d07b2a07b1807b3307b2407b2207b3007b2507b3407b4707b3507a9007a9407a8f079f7079f6079f8079fa079bb079610796b,
  0x07d2807d3b07d4a07d3f07d3e07d4707d4107d2907d2c07d4507d3a07d3607d3807d3d07d3507ca307c9607c9807c9407b2307b1a07b3807b3207b2f,
  0x0812d0811b0811908125081180804808043080470801b0801e0801f07fc907fcf07fc707fd107fd007fcd07fcb07fca07f9b07f9d07f9c07f9507f63,
  0x0838f08374083a4083730837a0838d083a8083a3083900827408232082340823a082330823808211081220811d0812708115081210811e0812c0811f,
  0x08376083ae08387083a60837f083b00839708388083af083a50837e0838b083aa0839b0839d0838c083830837d083a90839408375083990839508381,
  0x088950888908852086be086bd086c3086bc086bb086b4086cc086b8086b3086b9086c8086b0086ba086c5086c1086c2086b7086bf08656086590839a,
  0x08a2c08a2708a30089d5089d9089d6089820888e088930888c088ac088a4088970889b08899088a7088980889f088a1088910889a088aa088a2088a8,
  0x0900b0902408ee108ee008ed708edc08edd08ede08ed808dc108dbf08db908dc208dbc08d7908d7b08d7d08ca508c7d08c5d08c5c08c3b08c3908a1e,
  0x091f8091f3091f1091f4091ec09155091530915a0915809156090e9090ec090eb090d4090f3090f2090f4090f0090ea090ef090210900c0901c09011,
  0x0509e05094050950509b09997098e5098040976a096bf0966f096710966b0966d0967c09588095860957a091ee091e8091f7091eb091ea091f9091e4,
  0x055a20564505577055ad055a5055a805591053a7053a40531105312051d40515f0508705082050920509c050680509d0508e0508c05083050a30508b,
  0x057f50582805823058270581e0581905837058290570c0558e055a1055950557f055a60558c0557d055a405592055a305581055b50558f0558805593,
  0x05aa505a7c05aa605a7805a9e05aa205a7a05a9f05a9405aaf059610583b0582c0582d05838058390582e058360583f058330581b0581c0582505848,
  0x05bce05bca05bd105bd405bcb05bcd05bea05a9d05a9305a8f05a9c05a8c05a7d05a7b05aa905a8b05a8305a9705a8a05a8405a3705aae05a9505aac,
  0x05d3205d3c05d3805d4905d3905d4205d5905d3105d3d05d5205d3a05d3305d5505d4e05d5105d3505d3f05d4b05d4105d6b05d4305d3705c3005c0c,
  0x060fc060f806113060f506105061160610a060f206114060c4060ce060e2060cc060b9060c905fab05fa505fa605f5805e4105e4405d4505d4005d36,
  0x063d5063f6063e0063ca063f30649d063c3063ef063e8063e5063ce063b0063b1063940624a0610b06104060ff061100611d0611806103060c1060fe,
  0x065680655c065640656a0656706532063d9063d7063f0063c8063cb063cc063c7063c2063d3063d8063c4063dc063dd063be063df06461063f5063f2,
  0x068f1068ea068ec0692a068dc06904068d30690c06701066720666a0667906671066800667b0666c0667c065d2065d0065ae0659e0659d0658c06565,
  0x068e8068fc068fd068d0068f806914068c6068ef06911068b40697006908068cc06907068e1068f30691006913068f6068e4068eb068f7068d60690f,
  0x06b9506b9906b9706b9406b3c06b3f06b3b06b39068c70692506915068e9068d406906068d1068f4068e6068de068dd068c8068ce069170690a0690b,
  0x06e4006e4b06e3306e1c06e7306e5d06e4106e3f06e2b06e6206e4506e3d06e3c06e8806e4906e1f06e4706e4606dfc06c3006bf306bf206bf006bbd,
  0x06e7906e5506e7706e6406e7806e2706e6506e5306e3006e2206e3906e6b06e7106e6006e2806e3106e6106e5c06e6806e5e06e2e06e0306e3b06e51,
  0x0728607289072880725a0724b0711b0713a071280711f07132071220712507123071310712e070fb0712f0711e0712006e5a06e3606e3506e6606e52,
  0x074310742d074210741a074160742b074300742c0742e0730c0733507323073260732d0733207327073330733107322073300730b073120728b07285,
  0x077440774707746076da0769207695075d7075e4075df075dd075e6075e1075da075e70756c0756f0752f074fb0743207420074290741d0742307424,
  0x079720797307974078620785e0786807869078700786e0786a078710786d0785c078650786407860077ec077de0774c0774b0774e0774a077450774d,
  0x07d6f07d5807ca107ca807c9e07ca207b4507b5807b4007b4e07b4c07b4807b4407b3b07b4a07ae407ae607a9907a0407a0c07a0307a0a07a0207970,
  0x0805107fd707fa107fa007fa207f6607f6507f3f07f3e07d4e07d5f07d5107d6907d5407d5207d6b07d5c07d6d07d4f07d6a07d6707d5607d5307d63,
  0x083cf0833b082750823f0823d0823c08204081f9081f8081f7081ee081e60813a0814d0813d081470814f081520814a08143080d4080fe080500804f,
  0x083d6083ce083cb083e1083ff083d8083e5083dd08401083bf083e3083eb083c8083c608410083f6083fc083e4083e708412083e8083c008423083f9,
  0x083db0841b083e2083d7083fb083c4083ee083ec083c308413083ea083d1083c7083fa083d5083f3083c20840608411083de0840f08409083c9083f5,
  0x088c0088b8088b9088d7088ba088550885608848086d1086e8086d7086e9086ec086dc086eb086dd086ea086da086e3086d3086e6086e2086d8083fe,
  0x08a5208a4508a4408a5808a5708a4008a5908a3908a4d08a4e089db089da089dd089970899808995088c908901088b2088bd088b7088bc088b6088be,
  0x08dd508dcf08ddc08dd608dc708dcd08dd308dd808d8908d8008d8408cb508cb908cb008cbe08cba08c8008c8108c5f08a4f08a4c08a4a08a5108a48,
  0x091060902f090340902d08ee908ef408eec08ef108eeb08ef608ee808ee708ef508ee508eee08ee608ef908efa08ef708eef08dc508dd708dc808dd9,
  0x0920f092260921a09203092250920a0920109160091620915f09164091610910309105091070910009101090fb090f909108090fc090ff091040912c,
  0x0968309689096880967e09687095900958c0958d0957b09216092050921709219092240921c09202092270920409206091fd091ff09212092000920c,
  0x050b4050ca050c4050ae050c6050bf050bd04eb604e8404e8309ef909ce6098eb098a9098070976e097700976c096f0096f1096c3096c8096c209680,
  0x055d4055c0055dd055ca055cb055d0055cc055db055c30527c0527b052780527a051d7050b8050b6050c9050cb050b1050ba050c1050b0050c2050c8,
  0x0584e058550586f058490584d0584f05864058680585305714055c2055d9055cd055f2055c8055d6055e2055d5055cf0558d055d2055bf055e9055c4,
  0x05ab405aca05ac005ab705ac605abb05ac805abf05ab005ab505ab105ab805aba05acb05ac405ac7058fc05871058630583d0585b05865058590585d,
  0x05e4d05e4a05e4e05e4f05df005d6205d6705d6805d5e05d6c05d7205d6505d4a05d6305d7105c3305c1f05bd905bd805bd605a9005ab905acd05ab6,
  0x091680622006140061290614f0612f061460612e0613206136061450612b0614a06149060f705fad05faf05f4005ec705ecb05ec605ecc05ec505e4b,
  0x0642806430064260640c0642306422064370643906418064150641f06443064330642406420064090641206410063eb063f1063c5062240622506223,
  0x066990668a0668b06690066950668c06686065d3065920656f0640e064210642e0641b063e70640b0642706425064400641a0640a0642f0643506441,
  0x069650693d069330696c0693506949069480697a069590695706942069390696a069450693f06971069620694e069380695f06966067200667806694,
  0x06b460693c0697b0692f0695206932069510694f0695c069370694b0693b0694c06974069410695806976069440696f06940069690693406978068f0,
  0x06ec606eb906eb106ea006e9406e9306e9f06ec006e8f06ec806ed606e9b06bf806bf706bf906bfc06bfb0fa0d06b9b06b4106b4806b4206b4306b45,
  0x06ed006eb306ebf06ea106ea406e8d06e8e06e9206e9906ed806edc06ec306ebe06eb206ecf06ea606ecd06eb006eb706ec906e9e06ec106ebd06ed2,
  0x07153071500715f071700714b071430715807142071610716a0717807172071620715d07141071600716307152071540714706ea306eae06e9706eca,
  0x0744f074400745707451074520744b0744a07444073490734a073400733a0733b073420733c0728e07290072910728c0728d0724f0715a0714d07144,
  0x075fb07610075f8075f9075fc075fe075f7076030760f075ef0698307577075790751d074fd074fe074ff074e1074540744d07446074420744e07450,
  0x078840788f078940789a07887077e00776d077590775407767077690775a0775607752077600775f07755076dd076b507699075fd075f5075ed075f6,
  0x07a1007a1b07a1307a2207a1507a1707a1207a1907a1807a11079790797d079820797c0787b0789607880078990787907883078a1078860788507895,
  0x07d8007d8607d8807caf07cb407cb207b6307b7607b7807b6107b7007b7107b7307b6507b7207b6907b7407b6d07b6407b6607aeb07a9e07aa207aa3,
  0x0802107fdc07fdb07fa707fa507fa607f6c07f6807f6707f6b07f6d07d9207d7d07d8407d9407d8c07d7c07d8307d7b07d8e07d7a07d8507d7f07d8d,
  0x084560843f084f108245082420824008244082490821d08161081440816f08167081760815e0672108172081620815b081690815c081770816008164,
  0x084430847a084340843a084370845e085070845d0847308474084590845a0847d0844d0843008467084860844008451084650848d0848f0847908476,
  0x0847e084680843308436084470843b0848e084c50846f084520844c0844e08439084700845f0842d084420842f0844b083d908429084450843208478,
  0x088cd088cb088d6087050870d086f608701087090870e086f80874d086f5086d6086fa0870c086f7087040870b084500846e08454084600842b08444,
  0x08a8408a8208a7708a3f08a6108a7f08a8608a76089e6089dc089e2089e0089e1089e4089e5089df0899b08985088d0088cc088da088db088de088ce,
  0x08d9408d9308d8d08d8f08d8e08d8c08d9108d6908d6808ccc08c8508c8408c8608c6608c6408c6508c4a08c4b08c3c08a7a08a7408a8108a8308a75,
  0x08f0b08f0208f0808f0708f0508f0008f0108eff08f0608df408deb08df208de708de208de308de908dd008dee08df108dec08de008df008d9208d90,
  0x092830925e0926509233092660923a0923009252092480916f0916e0910e0910b0911409116091110910f0910d091100903d09049090440903f09052,
  0x0959c0959f09232092560924c092530924e09272092500926309254092310927009261092360926f09267092600924f0926c0926d092460924a0922e,
  0x099b0099b2099af098f9098f6098ac0980e0980d0980f09772097780977709773096f5096f8096fd096fa096ce096970969109693096920959b0959e,
  0x050e0050e3050ef050f0050ec050d3050e4050dd050ea050db050f3050e8050d7050d4050e609efd09e8009ce709ced09cea09b5b09aab09aad099b5,
  0x0587c05889055f9055ff056040561d055fa0560205613056010561c0560f055fc056120560c0561505627053ac05330052eb052e90528105280051d8,
  0x05aea05ad505ae505aee05adc0596b058fe0588f058940587b0588805882058760588e05891058870587a0588b058740587f05881058860589805890,
  0x05d7705d8105d7a05d8605d7d05d8005d8205c6305be305be005b7705adf05ae805ad905add05ade05aec05adb05ae005ae205af305aeb05aed05ada,
  0x05fb605f6f05f4305f4405ed405ed205ed905ed505edc05ece05ed705ed105ed805e5305e5905e5805d7f05d7905d8d05d7c05d7e05d8805d8905d8a,
  0x0642b0622b062270622906156061610616a0613b061650615b0617a0615406174061800616c06172061530615206173061710615e06141061280612c,
  0x064590646b0646c0643f0647f0645006460064530644b0645c0645e064820644e064a606466064750647d064730647206476064740645d0645b0644d,
  0x0698d069a70698e0699906991069bc069ac069b006996069ce069a0069c9069b6069b10672206704067050669f066a0066a1065a0065730647706465,
  0x069c6069a5069b5069c20699006997069d90699e069a1069aa06993069b3069cf0699a069ca069b9069d4069a4069bd069c4069bf069af069be069a9,
  0x06f1806f2706f1a06f1906f4e06f0906f2e06efb06f3706ef806f2506f0306ef106ef506ece06bfe06bc406bc306ba006b9f06b9e06b4b06b4d06b4a,
  0x06f3a06efc06f1c06f3906ef606efd06f0506f4306f0e06f0706eeb06f3506f3c06f3006f4006f2d06eee06ef906f7306f3606f0a06eed06f1206f3b,
  0x073510734d0734307293072950729707253072440719707181071860717b0718f07182071850718007189071900718706f2106f0806f1e06f0d06f1f,
  0x077850777c07781076b8076140760a07611076150760c0760807616075900757d0750307502075000746e0746707472074750747107473074620734c,
  0x07995079960798b0798a07998078a4078a2078ac078a0078a50789e078ab0787e078a8078ad078b4078aa078b2077830777e0776f077800776e07782,
  0x07b8c07b8d07b9607b9007b9107b8a07b9c07b8807aee07aac07aab07aa807a2607a2807a2f07a3007a4a07a2b079900799207988079970799307994,
  0x07dc607dc407dce07d9d07dc507dc007dc107daa07da307dc207db707da707cba07cbc07cbf07cbb07b8207ba407b990528407b9807b8507b8e07b9b,
  0x081870818308186081890805c0805d0802407fde07fe507fe307fe207f7307dc907da107da907dae07da607d9f07dbc07d9607db907daf07dcc07dcb,
  0x084a70849d084d0084b10849a084aa084cd084c1084b4084b9084ab084ae084ac084c2084ce084ba0849f084a1084a408497082150818b0818c0818d,
  0x0872808723087330866108491084b0084db084d2084d4084d7084a0084cf084b608498084d6084a8084af084a90849b084cc084c708494084a2084bb,
  0x08727087260874208735087310873a087120873c0872d0872a0873208720087460873e087410872c087430871b08719087210871e0872e087400876b,
  0x089eb089e90899e0899f089a10899d088eb088ec088f0088fb088f6088fc088ee088fe088fa088f2088f1088e7088f708711087300871a0872408738,
  0x08e0508e0608e0708e0308e0a08dfd08e0d08dff08e0208e0908d9608cd708ccf08cd508c6908c6808c3d08a9608a8f08a9208a8b08a9908aab089e8,
  0x09276092a4092a50917309179091720917a0911b09121091240911a0911d0911f09122091200911c0912308f0d08f0e08f1108f1008e0408e0008dfe,
  0x0928c092860928a092a1092880927d092a209295092820928e092ee092a30927f0929709279092ab0929a092a60928d092aa09294092a00927a0929b,
  0x097cd097ce0977f09781097840977b0978209780097830977e0977a0977d09758096ff096a10969e0922d0928b0929d092a9092870927e092a709299,
  0x09cf109b5f09b6109b6009b3f09b3e09ae709ae309ab1099c7099bd099c2099ba099bb099b9099c30999c0999d099070990009902098ae098ad09816,
  0x05641056350564c0564205648052ef052f10528c0528b0510a050fd0510c0510b050fe050f60510705106050f80513005103050ff09ea709cf509cf2,
  0x058ff058a1058a5058ac058af058a3058a0058b10589d058ab0571a0563a0562a056380563e0562c0563d05633056400565a0565805646056490564a,
  0x05da105d9c05da005d9505d9305da205d9205d9f05d9705d9905c6705b0f05b0505b0705b0105af905b0205af805b0305af605af705afd05af405aff,
  0x0619f061ad061af061930619b06189061a2061b0061b106179061830618b05fb205f4905ee105ede05edb07df305e5c05e6005e5d05e6905d9e05d9a,
  0x0657606498064b1064680649f064a30648c0648a0648b0648f0649c0649706485064a006496064700646e0622d061b3061660618d061a1061aa06192,
  0x069e2069ec069ff06a20069e4069f106a15069f8069e506a1706a0606a00066af066aa066b7066b2066a9066b0066b5065b3065b20657b065790657a,
  0x06a0706a26069f606a0f06a2506a1806a0406a09069eb069fc06a0d069fb069e606a0806a40069e7069f706a14069ee069f206a27069fe06a1d06a1b,
  0x06f5a06f8506f4f06f6206f8c06f8906f8d06f9206fc606f8706f7e06f2606f4106c0206bff06c0006c0106ba606ba206ba306ba506b5106a16069f4,
  0x06f6306f9506f7f06f6906f8b06f5306f9006f6706f7d06f6b06f6106f0006f5d06f9306f9406f5706f5006f5206f7206f5506f8206f6c06f7606f96,
  0x07352073580729a07298071b3071a70719c071aa071a1071a40719e071a50719d071b5071a90719a071a0071b00719b071af071b206f7b06f6a06f77,
  0x0761e076250757e0750707508074790747c07488074850747d07481074860748a074890748707362073590735a073610735b0735d073600735f0735e,
  0x078c3078c8078d4078ce078d1078cc078cf078bb078cd07788077890778f0778d0769b0769e0769d0769c0761b076280761a076230761c0761d07619,
  0x07cc807cc507bb507bca07bb907baf07bce07bac07bbe07bcb07bb707ab307ab407ab207a3906b760799b079a20799c079a0079a10799a078c9078c4,
  0x07fec07fea07feb07fed07fad07fb007fac07f7607ddf07dee07df007df107df607de607dfa07e0307de107dd707de707dea07ddb07df707ccb07ccc,
  0x0850e08529085000850f0853b08524082510824e0825008252082530824f082160819708199081a2081950819e0819f081a3080670806407fe807fe6,
  0x084fe08516084e9084ea08512084fc084f3084eb084f708515084f20852a084f40850c08508084fa0852b084fb0851c085270850a0851f0850d08509,
  0x087640876308756086620852f085190850b085300852008518084f9084ef084f0084e8084e70852608531084f60851e084fd085020852e0851d08528,
  0x0874f087650875c0876e0877a0876c0876f0875d0875f0874e087500876a0876d0875e087510875a08761087520875b087540875808773087e108777,
  0x089ec089f0089ed089a3089a4089a2089090890e0891108916089060891908918089170890b089140890c089050885a087690876708762087750877b,
  0x08ce808cd908cdf08ce508c8f08c4d08c3e08ad908abd08aba08ac308ad808ac508ac008abe08ad708abb08ad508ad408ad108ad308ab808ac608acf,
  0x08e1c08e1308e1808e1208e1408e2708e2608e1908e1108e1608e1b08e1508e2e08e2408e2508e2308e2008d9b08da108d9c08da008ce708cdd08cda,
  0x09186091850912e09126091320912a091290912b0912f0906b090670906f090700907308f1708f1608f2308f2008f1a08f1808f2408f2c08e1a08e17,
  0x092c8092ca092e8092c2092ef092cc092dd092d7092e9092d8092df092f1092cf092b6092d9092c0092c4092c3092d0091800918409182091810918a,
  0x0970809705096d3096a2096a4095b0095ae095ab095ac0957c092b4092c6092e1092b5092d3092d1092e7092de092e0092c9092d5092cd092e6092ce,
  0x099dc0991509917099160991409911098fa09908098b2098270981b098200982809829098260981d0981e097cf097d0097880978e0978a0975a09702,
  0x09b7609b6609b7109b7409b6709b4309b4609af109af209af309aeb09aec09ab3099cc099d7099cb099d8099d6099c9099ce099d4099d3099cf099cd,
  0x05117051130511c09f1009f0f09ed309e8309d0409d0509d0809cfb09cf909d0009d0709cf709cff09cfd09cfa09cfc09b6c09b6409b6809b7009b75,
  0x058bc058c2058ba058bf058c9058bd058c80571b0571c056770565e056720566d0566305666056730566e0566005670053e105334051de051110511a,
  0x05db205da805daa05dae05db005db505da705da905db105dac05bef05b1e05b2005b1a05b2805b1605b1005b1305b1405b2105b1b05b1905b17058c6,
  0x061bf061ba061cc061c1061c6061b4061c506196061a80619d05fbc05f4b05ee505ee805ee605ee705ee905e6f05e6605e6805e6705db405daf05dad,
  0x066bd066cf066cb066ca066c0066be066c8065a20657c0657f06533064d9064f3064db064c306489064bd064c9064cf064d0064d6064d70618c061b8,
  0x06a5006a6406a6a06a4106a3f06a3b06a5a06a2806a5106a5b06a7606a6d06a5d06a3e06a6806a3206a6706a4906a6606a3406723066cc066ba066bb,
  0x06fad06c0606c0306c0406bc706bc806bab06baa06ba706b5606b5406b5506a4606a4e06a4d06a5506a5606a5e06a3c06a6006a6906a6f06a5406a4f,
  0x06fab06fc906fa206fb806fbf06fcf06faa06fac06fba06fae06fa50700406fa806fca06f9e06fbd06fc406f5e06fc806fce06fbc06fc706fa306fcb,
  0x0729e0729d071db071da071c6071bc071d8071bd071cf071c7071ca071d4071cb071c1071c0071d6071b8071bf071c2071c506fb006fb206faf06fcd,
  0x07632076350763c076330763d076310762d0762f075800750b074a1074950749207494074a00749a0747f0736a0736b073650736c073670736607369,
  0x078df078ed078e2078e1078db078e3078de078ea078e5078e9078dd077970779907795077a3077a20779b0779c077a10779d0779a076e6076bb07630,
  0x07beb07bdc07be207bea07bd407bf907be807bda07be507bd507bdd07be707be307bde07ab707ab107ab507ab807ab607a4707a4807a44079a4078e0,
  0x07e1407e0d07e1607e0f07e0b07e2207e1a07e1507e1c07e0e07e1307e2007e1f07e0c07e1707e2107e1207cd107cd007cd707cd407cd207bdf07bd8,
  0x081f2081a7081b7081b2081b4081ac081b0081ab081b5081b9081ae081a6081b10806c080290802a07fef07fb107f7a07f7c07f7b07f4307e2407e25,
  0x0856e0854e085710855b0853e0856308547085510854408562085410856408546085400855808561085530854d0856b0854508556082570825608255,
  0x0878708779087980879608781087880879208793087970878f0879b0866408665086630856c08565085540855d085660858c08560085670855508575,
  0x089f10891f0892c0892f08923089290892208931089270892e0892d08930089260891e087890879a0879c08794087840879d087910879008785087a3,
  0x08cf008cf108cee08cf508c9008c9208c9108afb08aef08aff08ae808ae108ade08ac808af008adf08ae408b1408add08af508af408af208ae208ae0,
  0x08f3408f3708f3908f3208f3508f2e08f3608ebd08e3f08e3008e4108e3d08e3c08e3608e4508e4008e3808e3e08e3308da708da508d6e08d6c08cf3,
  0x093230931b0933c093380937a0930f093060931f093080931e093270918f0918d091910919009193091360913509133090fa090860907b0907909076,
  0x0930b0930c093140932a093350933909329092ff093240930209334092f7092f90931309325092fa0931d092cb0930d0930e0932d093460930109312,
  0x097f8097f009794097970979909710097120970b096d4096a9095bd095b5095bf095b6095ba095b9095be095cd095bc09316092fb0930009309092fe,
  0x09af909afa09af609abb09ab409abf09ab9099e7099e9099ea099e3099f0099e4099e5099ec099ee0999e09929099270991f09924098320982f09835,
  0x09d1809d1d09d2909d1409d1e09d2009d1709d2509b8809b7d09b9509b7a09b9009b9209b9309b8209b7b09b7e09b7c09b8709b8509b8009b3309af7,
  0x0568d0568c05693052f405129051200512405122051250512609f3d09f1209efa09ed609ed509ead09eae09e8709e8609e8809d1f09d1909d1009d22,
  0x05db705bf205bf105b7b05b2e05b2f05b2605b2705b2c05b2305b3205b2505b2d058d2058cf058d4058d6056810567f056820567e056830568405686,
  0x066d2065da065b60658006581064e8064e4064eb064e3064e9064ef061de061e8061e4061e5061e0061e7061bc061b5061c305fbb05fbe05e6a05e6c,
  0x06b5b06a9206a8c06a8506a9a06aa606a7f06a9106aa406aa806a8306a9506a8e06a9306a8706a9e06aa106a9b06a9f06a8906aa506a8106a9606a8d,
  0x07373071e2071f0071e4071f2071e8071f1071e106fe806fe206fdd06ff206fde06fe606fe706fed06fdc06fe306fd406ff406fa906fcc06c0906bad,
  0x077ab077b5076e9076a407647076490764807643075840750f075120751107510074af074a5074b1074ad074aa07490074ab074b2074970736f0736e,
  0x07a5407a5807a5607a5b07a5c079a8079ab07904078fe078f907905078f2078fc078fb07902078fd078f3077f0077a8077b1077b4077b6077b7077b2,
  0x07c1007bf107bf007c0607bfd07bf807c0107c0307c0907c0207bf307c0b07bf407c0e07bfb07bff07c0007bf207c0f07c0507ac107ac007abe07a5a,
  0x07ff407f7d07f7e07f7f07f4507e3a07e4407e3607e3b07e3007e4c07e2907e4707e4007e4907e2a07e380984807e3307e4207e3c07e2d07ce807c0a,
  0x0859a085a40857b085a30858b085a008595085a70858f08580085830825c0825a0825b081e9081bc081c7081c5081ca081cc081c4081bb0802c07ff2,
  0x0859f08590085980857608579085850858808582085a2085810859d085990858d08586085960858e08557085780857a085a1085890857c085770859e,
  0x087bd087b8087bf087b6087b4087ca087c4087af087b7087cc087c2087c3087c9087ae087bc087b5087b9087ac087b0087c5087ad087aa087be08668,
  0x08b1208b0f08b2208b0b08b0508b1108b1608b1808b1e089f3089f2089ae089af089ad089420893708952089410893e0893c0893308935087b2087de,
  0x08f4308e4708e4c08e5008e5308e4d08e4e08d6f08cf908c9408c9508c6f08c7108c7208c7008c4f08b1a08b1308b1c08b0608b0808b0d08b0708b15,
  0x0935009349093760935c093580937c093470935609364093af09383093a1091a00919d091a10919f091990919b091a20919a091380907e0908508f40,
  0x095c9095c0095c7093590934e0938009367093630935e093610937b09377093710934f093520935509357093790936a0934c0938f0936d0936009351,
  0x09845098490984a0984409841097f1097d4097d50979d0979e0979c097a10979a097190971d097180971f09720096ac096b0096ae095b7095c5095c3,
  0x099fe099fd099fb099f6099f8099f9099f7099f4099fa09a02099a1099a30999809930099310992d0992f09932099330992a0992c0992b0992509843,
  0x09d3609d6709d4109d3309baf09ba009ba209b8609ba409ba509ba109ba609b9b09b9e09ba809b9a09b4809afc09b0109afd09afe09abe09a03099fc,
  0x09f2309f2409eff09efb09eda09ec809eb009e8d09e8909e8a09d2d07ff509d3d09d4009d3709d3e09d4309d4209d4509d3009d3809d3109d2f09d2e,
  0x061f1061ee061ed061df061d805e6e05e6d05dc005c6a05c6905b3c05970056990569d0569a056970569c056980512e0512d0513109fa009f5409f22,
  0x06ab606aba06ac606ae106abd06ab906ac5066d8066db066da065db06594064fc0650306501064f8064fd06504064ff061e9061d6061eb061f0061ea,
  0x071f9071ff072010700a06ff706ffc0702606ffb0700006fff0700e0701407005070010700d0700c0700706c0b06bc906b5e06aad06ab406ac706ab7,
  0x077c2076ec076bd076a60765a07657076530765007659076640765c0751307514074c2074bb074b6074be074c1074b5074c0074b807376071fd07203,
  0x07c3007c2507c2207c2807c2607c1d07c2d07c1f07c2007c1907c2907c1c07a5f079ac079ad0791107912079100790907914079130790c078ff077ba,
  0x085c0085c6085b40825e0825f081d0081d2081d10807507ff807ff707fb307fb507e5307e5707e6007e5107e5f07e6207e5807e6307e5607e5007e5c,
  0x087db087e2087e6087e708669085be085b7085b808624085d2085b6085b1085c5085c8085ce085cb085bf085c4085c7085bd085b5085b3085c2085c3,
  0x089460894c0894f0894b08953087dd087e8087f408801087d9087d7087a4087e3087d8087ed087d3087dc087d4087e4087f3087df087e5087ea087eb,
  0x08c4208b3a08b3d08b3b08b2408b2e08b3608b2608b3708b2508b3108b3e08b3c08b2f08b4708b3508b3008b3308b2308b2708b2a089490895108950,
  0x08f4708f4608e5408e6908e5d08e6108e5a08e5b08e6708e6508e5e08e5608e5708e6008e6208e5c08d0008d0208d0408cfe08c9708c9808c9908c75,
  0x09395093a60939e093aa0938e093a7093890939d0939b093b7093920938c093b5091aa091af091a7091a5091a80913e0913b0913a0912808f4b08f48,
  0x0972209723096dd096d8096df05dc2096da096d7096b3095d1095d3095d2093a5093a3093b4093a8093a4093b209391093b10938d0939f0939909388,
  0x09a0909a0b09a0f0993a0993c09941098b8098520985109850097fa097d8097d6097d9097d7097a5097a2097aa097a4097ab097a8097ae097ac09725,
  0x09bb809bb509bc109bbf09bc309bc609bc709b4b09b4c09b4a09b3509b2909b0509b0409b0809adc09ac009a0609a0709a0509a0a09a1109a0409a0d,
  0x09f0109edf09e8c09e8e09d5a09d5809d5f09d5409d5209d5709d4c09d5609d5909d4b09d5b09d4a09d4f09d5309d5c09bbd09bb909bc409bb609bd3,
  0x05912058db058dd058da056ac056aa056a7056a6056ad056ab053b4052f705296051350513409f5509f4c09f2809f2909f2a09f2b09f2509f1609f00,
  0x06adf06acb06ad906ad106acc06ae006ae7066de065dd065de065840650e0650c065090650d0651006507061fb05fbf05e7005dc305b3f05b3e05b3d,
  0x0720a0720c0702a0701c0702407017070290702307022070210702b0701607020070270701906c0c06bb006b6006ade06acd06acf06aeb06ad006adc,
  0x0791e079170791c079210791b0791d077f1077c4077ca077c90766007516074c3074b7074c5074cb072a1072a3072a4072a6072a5072050720207207,
  0x07f8607f8307f4a07f4b07e6807e7407e7207e7a07e6f07e7707e7007e7807e7507e7607cea07cec07c3b07c2c07c3907c3c07c3307a6807a67079b0,
  0x085dc085e3085df085d8085f8085f2085ec085d7085da085e8085e1085d9085ed085f1085eb082630826108264081d5081d70807807ffe07ffd07fb7,
  0x089570895b0895a08962088020880a087ff08808087fc088060880b0880c08809087f7087f608803087fa08800085e2085de085ef085e6085f0085d1,
  0x08c7708c4308b5708b5208b4208b5108b5508b4b08b5408b5608b5308b4008b4a08b4808b50089f6089b6089b708988089590895d089580895c08961,
  0x0913f0914008fb408f5308f5008f4f08f5108f5208ec208e7b08e6f08e6a08e7308e7808e6d08dab08dad08daa08dac08d0908d0708d0608c9a08c76,
  0x093e7093d2093c0093ce093c4093d5093e3093ee093d4093ca093e6093a9093d9093cc093ec093f9093d0093da093c2093cf093c7093de091ad091b0,
  0x09948098be098bb098bd098bf098570985d098590985c097df097de097dd097b6097b7097b309726097280972c0972b09729096e1095db095da0957d,
  0x09bea09b3709b0c09b0e09b0a09b0b09ac209a1409a1c09a1e09a2309a2709a2009a2209a1b09a2409a1d09a2509a1509a1a099a7099a60994309947,
  0x09d7809d8009d7109d8809d8409d8a09d8109d7709bda09be109bd509be509bd909bdc09bec09bd709bd409bf009be209be609be409bde09be009beb,
  0x09f4009f2d09efc09ec009e9109e9409d6809d8709d7f09d7909d6f09d8209d7b09d7309d8509d6909d7009d7509d7409d6b09d7d09d8c09d8b09d86,
  0x066e8065df06513065150651606517061f905fc105fc005eef05eee05dc705dc605b45058e3056b3056b5056b20533709f5809f5709f5609f4d09f41,
  0x070330703b07040070390703a0703f07038070420703107034070370702f070350703c06aef06aee06af106af906ae806aea06af006af3066e4066e3,
  0x07a6e079b2079290792407928079270792307925077f2077cd077cf077ce077cc076ed076be076aa076ab074ba0737c0737d072a8072140721307041,
  0x08601085ff0862208269082680820b081d9081db0807907fff07fba07e8007e8107e7e07e7b07cee07c4507c4707c4a07c4807c4907af707a6d07a6c,
  0x08b6308b6808b5d08b6a08b60089f7089b90896608963088160881308817088110881008819085fd0860c086050860908604085f6086000861b085fe,
  0x09420093fb094130940b091b3091b2091b5091b709141091430908d08f5a08f5808f5508f5708f5608f5908e8408e8808e8608dae08b6d08b6708b65,
  0x09411093f60940c093fc093ff0940a093f809409093fa09412094160940e09407093f709400093f50940d09419094280941009415093fe094140940f,
  0x09a3409a32099530994b0994c099590994e09950098c2098c10985f098630986209860097fe097fd097bb097b90972f0972e095df095e0095de09406,
  0x09c0609c0e09c0709c4009bf809c1209c0509bf709c0809c0b09b1109b1209b1009ac609aca09ac709a2d09a3809a2e09a2909a3609a2a09a2c09a31,
  0x09da909dbf09da309d9e09da809da209d9a09da109d9709daa09d9c09d9409da009d9b09d9009d9809d9209d9d09da409d9909d9f09c0909c1409c17,
  0x056bd056c30529705298051390513a09f9109f5909f5d09f5e09f6009f5b09f2e09f3009ee609ee709ee409ee509e9a09e9b09e9909da709da609d96,
  0x0737e072190721a0721d070460704507049070480704a070440704306b0006af806b0306afc06b020651b061fd05ef105dcf05dcb05b4705b48056be,
  0x086230861f086260862a08618081dd0803007fbb07f4d07e8d07e8607e8b07e8807e8707e8a07cf207c5307c540792f079310792d077d00766a07517,
  0x08b7808b79089fa0896b0896e089690896d0884a0882b0881c08824088200881b0881d08829086250861e0862908620086210862e08627086190861c,
  0x0942a09439094300943c0943d09429094360943b0943f091b909145091440914608f5d08f5b08f5e08e8c08e8e08daf08d1408d1008b7b08b7a08b45,
  0x09a3a09a4109a4209a4409a4609a3d09a390995609958098c0098c6098c909864097e1097bf0973a09735095e3095e4095e509431094400942c09437,
  0x09dcf09dca09dc709dc109dbc09db609db709c2109c2409c2909c2809c2309c2c09c1c09c1d09c2b09b5209b3a09b1609b1809b1709b1509acd09a3f,
  0x09f1a09f1809f1b09eed09eee09eeb09e9c09e7a09db209dcd09db309dcc09dad09db109dc809dac09dba09db909dce09db509dbb09dc309dc509dbe,
  0x0705506c0d06b0906b0806b0b0652206526065200652105ef205dd105dd505b4c05b4b05971056cb056c5056c604eb909f9209f6409f6509f4e09f31,
  0x07cf107cf407c5a07c5b07c5907c5c07c5707a7107a70079b407935076ad0766d074d7074d9074d5074d80737f072a90721f0721e070520705707056,
  0x08b8608b8208b8408b7e089fb089be089bf08971088250882a08826088280882c08636086320862c0863308635086340826b081de07f8707f4f07e91,
  0x0973f09446094490944809445094470944f0944b0944a094500944c0914708f6208f6008e9708e9608e9008e9208e9a08e9408e9508d1508b7f08b85,
  0x09c4809c4609b5509b5609b3b09b2b09b1909ad009a5009a5209a4909a4a09a4809a4f09a4c09a5409a5309a4e0995b09954098cb098690986a097e3,
  0x09dd609dd809dd909de909ddf09dd109ddc09dd009dcb09dda09dde09dd209ddb09c3609c3d09c3209c3409c3709c3c09c4109c3309c3909c4409c3f,
  0x06204062030620105f4f0882f05dd805b4d05972058e7058e8052990513d09fa209f9509f6b09f4209f3209f3309f3509ef009eb609ddd09dd509df5,
  0x0863c08639086400863a0826c07e9507c6607c67077d407670073830738107382072220705a0705b06bca06b0f06b1206b11066eb065960652506529,
  0x0945d0945509462091bc08f6308f6408e9808d1908c4508b8808b8b08b8e08b8c089fe089730897408976088330882e08832088300863e0863b08631,
  0x09de309def09df709dfb09c4e09c4c09c5909c5509c4b09c4d09c4a09c5009c5809c5209b2009b1f09b1e09a5909a5609800097c5097c40945e09457,
  0x09f3609f3709f3809f1c09f0609ef309ef209ed009ec209ded09de809df309df409dec09de209df009df209de609dee09de109df609de409df809deb,
  0x079b707938077d5074e5074db07223070600705d070610705f06b13066ee066ed0652d05c6d05b4e056cd056d309f6f09f6e09f7009f7109f4f09f43,
  0x09746096e509469094680946b091c2091bd091be08e9d08ea008e9f08e9e08b9508b940884b088350883708838086430826d07f8907e9707c6a079b6,
  0x09dfd09dff09e0909e0109e0009e0509e0609e0309e0709dfe09e0209c6009c5e09c6209c6609c6709c6309b5909ad509a5e097e5097c70974709743,
  0x07e9a07cf607c6b07c6907939077d9077d8072aa072260706206b1a06b1706b1906b18065b80652e056d409f7609f7509f7409f4609f1e09ea009e04,
  0x0974909473094710946f0946d0946e08ea308ea408ea508b9908b98089ff0897b0897c0897a08979086480864708646081e1081e007e9907e9b07e98,
  0x08db20883c07c6f070660571e09f7909f7a09f7b09f7809f4709f0909ef509ea109e1109e1209e0f09e1009e0d09e0b09c6d09c6e09c680995f09872,
  0x08b9e0883f0883d0883e0866a07cf7070650706809fa409f0a09ef609e1309e1409c7509c7109c7309c7409a6009475094760947809474091c308ea6,
  0x09481094800948208ea80864c0722706b1e0620709f4809e1709e1509b2409a6709a6609a64099ab09961098cc09874098730974b08ec908ea908c9c,
  0x058bb088cf092b90788109f9809f4909f7e09ea40706a0706909e1d09c7a09a6b0767509eb709c790948308b9f0864b0722909e1909b2e09a6809a69,
  0x0255602565025530255b0256702558025610256a0255e0255502564025520255d025690255a025630256c0256002557025660255405afa07ca706052,
  0x289e42494203649051b5073ef042b50854c23fc5205df092db205470ffed0256f025700256e0256d02550025510255c0256802559025620256b0255f,
  0x2038005fa42037e050292251324ab12360027a8426d2905008224ed04fab2130526bb3202a0289aa24933062df067440783c23cc8082ee219db09344,
  0x0877d05b8221983232332058e22530202e5220fc20bff0516a233b40516020487249a408416037430986c0510e0347a051010507d2041f06edb20347,
  0x05257052b50523c052260520b05f7b2372d0693e083cd051ed05342051e2051b324aa6051d303cdc051d1051cf051c909d34051b8051b223c99205b3,
  0x03eaa0604a073d50681b2172606ccb20be2053440533323fec2095423f8006ed90554928ade0530526b130860d052e00854207c15052c5052b905294,
  0x06c49053c5053c10739c03f5925772073a7053ae053ab053a028a9b05393077e621613215960537f0537e286ab053740536d044a2071dd216e8038cc,
  0x20edd2170d047a6054a40548f0555d20d7426b530546d06d5b066570552b070790541320c77053f622da323feb053e020b8f03aab053d9057fe04e49,
  0x0564f0564d066ad066a42328a066cd05637210b4066b324435045522403a218d705605055a905586074170542f04ced0554722698289bc20d4d03db4,
  0x24bf50582624363214540580321416057e626c7e036b1057420708b06c6e241a5057462124f0362328b66056ed056ef05700053fe09787056f1078f1,
  0x20d4e059c908505216920555305a242163e06e59036c3068a60591f035a1093d3242782a1500574305bff058fb2123c058dc058e003561058aa0585c,
  0x03d852255426fa105ad30746505a960370805a77249a9036e605a6305aab26e45059f9216d52182806d7126da6217b2217fb059d9217dc26d2a26c81,
  0x073ce05c1321b4405c0504d1005b9d05bf3205a5259cc21a340616005bd5202040485d0400427a0e05b7c0658805b76052d005e83216b80373221911,
  0x03836082872217322049249010382d082fc05dd705cba21ea405d4605d1805d1021e3721df905d8b05cef05ce905c85048dd05c4926b2821ca505c14,
  0x2f894201c105f0d0941b0683e05efc038a005efb05ef92848205ef405e0921771053a805ed004eb7053a620cd3244bc05e7a05e7506a8a05e2e03bc2,
  0x28a292029e091d622668270f821f6a2525003d5f05db605fa728a360934005f7226e6e097bd05f632247105f58223d02688805f3a2133a048ae03ade,
  0x26ed22f8a606142084240616405aa0050e1074a427a532498f24982060b3060a40609e03e4007971227b4057900363903dc703963218770668506031,
  0x0636c22e0d062d521770062c5201180638b0651e0615c06023228c12298003932061d02995d28b9d061d32285f23fb705baa0618720656051f406181,
  0x0656d0658524a2324a2806f160654d03a570643a03a660947b064e5064e12571d2408c0981422e3606f8a06490217fc2138e063f80643803a17249df,
  0x0667406673251e60666720e750664b231a5231a406644231f8231f7066182340005fdf065e3065e021829040d8065d104b3724940065b52307e0655f,
  0x0923c06e5006822044e9067d7290ed241cd06762067670675e237c2069fa03b2b24a212439c06702099a4228f7077c525313231c8285f42323121e3d,
  0x03ba10699806936042fc28a4a06961067ac03b802363c03a0103d320690006901235cd068c30697328adf06a0b069e12346f0685d26da0233e606801,
  0x21958203b523adb06eb5227cd06b7406b35060de2092306b1d03c0d2919c06ac8067b103bf306a9d2370306a452212a23659069f90509008363203c9,
  0x09b8320d3203ceb036e523cc9249002490c241a423dbd044c523dbc06c790822606c5a26b51248f12248b06c3706bdc23efc06be123b5a0542103740,
  0x0745323e2f06e2f28b210842e06e1d06c9c051c726f740853326e72240852497f06f0406e7c06d5c06d9626deb26da126d250683707f8f22491231f9,
  0x2409106fd32414406f9f03d3b2917006f7403d4e06f5c06f44093f0045552403d2149706efa23e3006f9d0370d06ff82304b05a9106e4f079cc23f82,
  0x0712b2427707196071b403de804104070df070d6070d5070cc07081070a70707e0704b261dd241402415724156051df2413f23fb423ff02403924155,
  0x256050934107224094430591107215094420720e070bd28be8071ba24a2224a272445a0712c242c1093620714f2436505c9c0716e0714a05a8807145,
  0x073c926a2e20c3a073aa073cf0732e0732828804048ed2882b248230732b0732a0728206f3d0680d2304403e550725707255068bd24974072400722e,
  0x083b907476073e40744728eb207460228ad0745c03ed7205c30743924a260690307415073f7249fb2498d249b7036c50662324a24216e7241e207449,
  0x0938528eac05bd721a4b28ed90751e074e90750e21988074c82189e28c0305b4628b8f24a792415f24a8c049530748206a2c093f107474037300746c,
  0x076a12690e26911037f8081ef07690263f5076760766f0764f076510762c07602075b40759e0745d0758e24d1303f0424f820756e075670754a0754d,
  0x068ca24a122137607809077f4216c12896828964077af232ac0775825220064af07740077260771e21e1c2517d2509d0846226f9f076cc076b7076a5,
  0x079a90793c27b390799d25857079800690208900079862261c2608328b2b0888408fb82760c078b107934078d7255e00792e096a5078d3078c7078af,
  0x079d42910d079c603ea82712606e2a]

/-- `index_code_point_big5` (lib/whatwg/encoding/indexes_code_point.cpp:5), 19782 entries. -/
def cpBig5 : Table := ⟨20, 19782, cpBig5Data⟩

/-- Rows of `index_pointer_big5_0`. -/
def ptr0Big5Data : Nat := pack 480 [
  0x002cd002cb002ca002c9002c7002c60028a00283002750026a0025b0025400250001530014b000f8000f7000d7000b7000b1000b0000af000a8000a7,
  0x003a8003a7003a6003a5003a4003a3003a1003a00039f0039e0039d0039c0039b0039a003990039800397003960039500394003930039200391002d9,
  0x003c8003c7003c6003c5003c4003c3003c1003c0003bf003be003bd003bc003bb003ba003b9003b8003b7003b6003b5003b4003b3003b2003b1003a9,
  0x0042500424004230042200421004200041f0041e0041d0041c0041b0041a0041900418004170041600415004140041300412004110041000401003c9,
  0x0043d0043c0043b0043a004390043800437004360043500434004330043200431004300042f0042e0042d0042c0042b0042a00429004280042700426,
  0x0201c02019020180201402013004510044f0044e0044d0044c0044b0044a004490044800447004460044500444004430044200441004400043f0043e,
  0x02170021690216802167021660216502164021630216202161021600212102116021090210502103020ac0203b02035020320202702026020250201d,
  0x0221f0221e0221a02215021e7021b9021b80219902198021970219602193021920219102190021790217802177021760217502174021730217202171,
  0x024050240402403024020240102400022bf022a50229902295022670226602261022600225202235022340222e0222b0222a02229022250222302220,
  0x0241d0241c0241b0241a024190241802417024160241502414024130241202411024100240f0240e0240d0240c0240b0240a02409024080240702406,
  0x025000247d0247c0247b0247a02479024780247702476024750247402469024680246702466024650246402463024620246102460024210241f0241e,
  0x0255c0255b0255a02559025580255702556025550255402553025520255102550025500253c025340252c025240251c0251802514025100250c02502,
  0x02571025700256f0256e0256d0256c0256b0256a0256a02569025680256702566025650256402563025620256102561025600255f0255e0255e0255d,
  0x025b3025b2025a1025a002595025940258f0258e0258d0258c0258b0258a025890258802587025860258502584025830258202581025740257302572,
  0x02e8d02e8c02e8a02e8802e8702e8602e8402e800273d02642026400260602605025e5025e4025e3025e2025cf025ce025cb025c7025c6025bd025bc,
  0x03002030010300002f3302ee302ede02ed702ed602ecf02ecd02ecc02eca02ec602ebe02ebc02eb602eae02eac02eaa02ea702ea502e9d02e9c02e95,
  0x03025030240302303022030210301e0301d03015030140301203011030100300f0300e0300d0300c0300b0300a030090300803007030060300503003,
  0x03054030530305203051030500304f0304e0304d0304c0304b0304a03049030480304703046030450304403043030420304103029030280302703026,
  0x0306c0306b0306a030690306803067030660306503064030630306203061030600305f0305e0305d0305c0305b0305a0305903058030570305603055,
  0x03084030830308203081030800307f0307e0307d0307c0307b0307a030790307803077030760307503074030730307203071030700306f0306e0306d,
  0x030a5030a4030a3030a2030a10309e0309d0309c0309b030930309203091030900308f0308e0308d0308c0308b0308a0308903088030870308603085,
  0x030bd030bc030bb030ba030b9030b8030b7030b6030b5030b4030b3030b2030b1030b0030af030ae030ad030ac030ab030aa030a9030a8030a7030a6,
  0x030d5030d4030d3030d2030d1030d0030cf030ce030cd030cc030cb030ca030c9030c8030c7030c6030c5030c4030c3030c2030c1030c0030bf030be,
  0x030ed030ec030eb030ea030e9030e8030e7030e6030e5030e4030e3030e2030e1030e0030df030de030dd030dc030db030da030d9030d8030d7030d6,
  0x031100310f0310e0310d0310c0310b0310a0310903108031070310603105030fe030fd030fc030f6030f5030f4030f3030f2030f1030f0030ef030ee,
  0x0312803127031260312503124031230312203121031200311f0311e0311d0311c0311b0311a031190311803117031160311503114031130311203111,
  0x036c5036c3036b1036490363903623035a1035610347a033d5033d2033d1033ce033c4033a10339e0339d0339c0338f0338e032a303231031cf03129,
  0x03ba103b8003b2b03ade03aab03a6603a5703a1703a010396303932038cc038a0038360382d037f8037430374003732037300370d03708036e6036e5,
  0x042b504104040d80400403f5903f0403ed703eaa03ea803e5503e4003de803dc703db403d8503d5f03d4e03d3b03d3203ceb03cdc03c0d03bf303bc2,
  0x04e0b04e0a04e0904e0804e0704e0304e0104e0004d1004ced04b3704953048ed048dd048ae0485d047a60455504552044e9044c5044a204491042fc,
  0x04e3904e3804e3604e3304e3204e3104e3004e2e04e2d04e2b04e2604e1f04e1e04e1904e1804e1604e1504e1404e1104e1004e0f04e0e04e0d04e0c,
  0x04e6904e5f04e5e04e5d04e5c04e5a04e5904e5804e5604e5304e5204e4f04e4e04e4d04e4b04e4904e4804e4704e4504e4304e4204e3f04e3c04e3b,
  0x04ea104ea004e9f04e9e04e9b04e9904e9504e9404e9304e9204e9104e8e04e8d04e8c04e8b04e8804e8604e8504e8404e8304e8204e7f04e7e04e73,
  0x04eca04ec904ec804ec704ec604ec404ec304ec204ec104ec004eba04eb904eb704eb604eb304eae04ead04eac04eab04ea804ea604ea504ea404ea2,
  0x04ef404ef304ef204ef104ef004ee904ee804ee504ee404ee304ee104edf04ede04edd04edc04eda04ed904ed804ed704ed604ed504ed404ecd04ecb,
  0x04f1504f1404f1304f1204f1104f1004f0f04f0e04f0d04f0b04f0a04f0904f0804f0504f0404f0204f0104f0004eff04efd04efb04ef704ef604ef5,
  0x04f4904f4804f4704f4604f4304f4104f3f04f3e04f3d04f3c04f3b04f3a04f3804f3604f3404f3304f3004f2f04f2d04f2c04f2204f1d04f1904f18,
  0x04f6304f6204f6104f6004f5f04f5e04f5d04f5c04f5b04f5a04f5904f5804f5704f5604f5504f5404f5304f5204f5104f5004f4f04f4e04f4d04f4c,
  0x04f8104f8004f7f04f7e04f7d04f7c04f7b04f7a04f7904f7804f7704f7604f7504f7404f7304f7004f6f04f6e04f6c04f6b04f6a04f6904f6704f64,
  0x04f9e04f9d04f9c04f9b04f9a04f9804f9704f9604f9504f9404f9204f9104f9004f8f04f8d04f8b04f8904f8804f8704f8604f8504f8404f8304f82,
  0x04fce04fcd04fcb04fca04fc904fc704fc504fc404fc304fc204fc104fc004fbf04fbb04fba04fb904fb704fb604fb504fb304fb204faf04fae04fab,
  0x04ff504ff404ff304ff104fef04fee04fec04fe104fe004fdf04fde04fdd04fdc04fdb04fda04fd904fd804fd704fd604fd404fd304fd104fd004fcf,
  0x05018050170501605015050140501305012050110500f0500e0500d0500c0500b05009050080500705006050050500004ffe04ffa04ff804ff704ff6,
  0x050350503305031050300502f0502d0502c0502b0502a0502905028050270502605025050230502205021050200501f0501e0501c0501b0501a05019,
  0x0505d0505c0505b0505a050570505505053050510504f0504e0504d0504c0504b0504a05049050480504705046050450504305041050400503c05037,
  0x0507d0507a050770507605075050740507305072050700506f0506e0506d0506b0506a05069050680506505064050630506205061050600505f0505e,
  0x050a3050a20509e0509d0509c0509b0509a05099050980509605095050940509205091050900508e0508d0508c0508b0508705085050830508205080,
  0x050c7050c6050c5050c4050c2050c1050bf050be050bd050bb050ba050b8050b7050b6050b5050b4050b3050b2050b1050b0050af050ae050ad050ac,
  0x050e9050e8050e7050e6050e5050e4050e3050e1050e0050dd050db050da050d7050d6050d5050d4050d3050d1050cf050ce050cb050ca050c9050c8,
  0x0510705106051050510405103051020510105100050ff050fe050fd050fb050f9050f8050f6050f5050f3050f1050f0050ef050ee050ed050ec050ea,
  0x051290512605125051240512205121051200511f0511c0511a05118051170511505114051130511205111051100510e0510c0510b0510a0510905108,
  0x051470514605145051440514305141051400513f0513d0513c0513b0513a0513905138051370513505134051330513205131051300512e0512d0512a,
  0x05169051680516705165051630516205161051600515f0515e0515d0515c0515b0515a05159051570515505154051520514d0514c0514b0514905148,
  0x05195051940519305192051910518f0518d0518a05189051880518705182051800517c05178051770517605175051710516e0516d0516c0516b0516a,
  0x051c4051be051bd051bc051b9051b8051b7051b6051b5051b3051b2051b1051b0051ac051ab051aa051a5051a4051a2051a00519e051980519705196,
  0x051e2051e1051e0051df051de051dd051dc051d8051d7051d4051d3051d1051d0051cf051ce051cd051cc051cb051ca051c9051c8051c7051c6051c5,
  0x052100520e0520c0520b0520a0520905208052070520605203052020520105200051fd051fa051f9051f8051f6051f5051f4051f3051f1051f0051ed,
  0x05238052370523605235052330523205231052300522e0522a0522905228052260522505224052210521e0521d0521c0521705216052130521205211,
  0x0525e0525d0525c0525b0525a05257052560525505254052520524e0524d0524c0524b0524a0524905247052460524405243052410523c0523b0523a,
  0x052830528205281052800527f0527d0527c0527b0527a05278052770527505274052720526f0526e0526d0526c0526b0526a0526905262052610525f,
  0x052ac052ab052aa052a9052a6052a3052a00529f0529b052990529805297052960529405293052910528d0528c0528b0528a05289052880528705284,
  0x052db052d9052d8052d7052d6052d5052d3052d2052d0052cd052c9052c7052c5052c3052c2052c1052c0052be052bc052bb052b9052b5052ae052ad,
  0x052ff052fe052fc052fb052fa052f9052f8052f7052f5052f4052f3052f1052f0052ef052eb052e9052e6052e4052e3052e2052e0052df052de052dd,
  0x053230532205321053200531f0531d0531c0531a053190531705316053150531205311053100530f0530e0530d0530b0530a05309053080530605305,
  0x053480534705345053450534405343053420534105341053400533f0533e0533d0533c053390533805337053340533305331053300532f0532d0532a,
  0x0537205371053700536f0536e0536d0536c05369053660536305361053600535e0535c0535a05357053540535305352053510534d0534c0534a05349,
  0x0539c0539a053990539805397053960539405393053920538f0538e0538a05384053820537f0537e0537c0537b053790537805377053750537405373,
  0x053ca053c9053c8053c5053c3053c1053bb053b9053b6053b4053b2053ae053ad053ac053ab053a8053a7053a6053a5053a4053a00539f0539e0539d,
  0x053f0053ef053ee053ed053ec053eb053ea053e9053e8053e6053e5053e4053e3053e2053e1053e0053df053db053d9053d7053d6053d4053cd053cb,
  0x05411054100540f0540e0540d0540c0540b0540a05409054080540705406054040540305401053fe053fc053fb053f8053f6053f5053f3053f2053f1,
  0x054300542f0542e0542d0542c0542b0542a05429054280542705426054250542405421054200541f0541e0541d0541c0541b05419054180541305412,
  0x05460054540544f0544e0544a05448054470544605445054430544205441054400543e0543d0543c0543b05439054380543705436054350543305431,
  0x0547c0547b0547a0547805477054760547505474054730547205471054700546f0546d0546c0546b0546805467054660546505464054630546205461,
  0x054a1054a00549a0549805496054950549205491054900548f0548e0548d0548c0548b054880548705486054840548205481054800547f0547e0547d,
  0x054be054bd054bc054bb054ba054b8054b7054b6054b3054b1054b0054af054ae054ad054ac054ab054aa054a9054a8054a7054a6054a5054a4054a2,
  0x054e9054e8054e7054e6054e5054e4054e2054e1054e0054de054d6054cf054ce054c9054c8054c7054c6054c5054c4054c3054c2054c1054c0054bf,
  0x0550b0550a0550905508055070550605505055040550305501054ff054fd054fc054fb054fa054f8054f7054f3054f2054f1054ee054ed054eb054ea,
  0x055360553505534055330553205531055300552f0552e0552d0552c0552b0552a05527055260551a05517055140551205511055100550f0550e0550c,
  0x055530555205551055500554f0554e0554d0554b0554a0554905548055470554605545055440554305541055400553e0553c0553b055390553805537,
  0x05581055800557f0557e0557d0557c0557b0557705576055750556a0556605565055640556305562055610555f0555e0555d0555c055570555605555,
  0x0559f0559d0559c0559a055990559805595055940559305592055910558f0558e0558d0558c0558b0558a05589055880558705586055840558305582,
  0x055c4055c3055c2055c0055bf055bb055b5055b3055b2055b1055ae055ad055ac055ab055aa055a9055a8055a7055a6055a5055a4055a3055a2055a1,
  0x055df055dd055dc055db055da055d9055d6055d5055d4055d3055d2055d1055d0055cf055ce055cd055cc055cb055ca055c9055c8055c7055c6055c5,
  0x0560505604056020560105600055ff055fe055fd055fc055fa055f9055f7055f6055f2055ef055e9055e8055e7055e6055e5055e4055e3055e2055e1,
  0x0562f0562e0562c0562a05629056270561f0561d0561c0561b056170561605615056140561305612056100560f0560e0560d0560c056090560805606,
  0x0564d0564c0564a056490564805646056450564205641056400563f0563e0563d0563b0563a056390563805637056360563505634056330563205630,
  0x05671056700566f0566e0566d0566c0566b0566a05669056680566605665056640566305662056600565e0565a056590565805657056530564f0564e,
  0x0569505693056900568f0568e0568d0568c05687056860568505684056830568205681056800567f0567e05679056780567705676056740567305672,
  0x056be056bd056bc056b7056b6056b5056b4056b3056b2056ae056ad056ac056ab056aa056a8056a7056a6056a50569d0569c0569a056990569805697,
  0x056e4056e1056e0056df056de056dd056db056da056d7056d4056d3056d1056cd056cc056cb056ca056c9056c8056c6056c5056c3056c2056c1056c0,
  0x0570c0570b0570a0570905708057070570405703057020570105700056ff056fa056f9056f7056f1056f0056ef056ee056ed056eb056ea056e7056e5,
  0x0573405733057300572f0572e0572d0572c0572a05729057280572305722057200571f0571e0571c0571b0571a05718057160571405713057120570d,
  0x05768057660576405762057610575205751057500574f0574e0574d0574c0574b0574a05749057470574605745057430574205741057400573e0573b,
  0x05793057900578f0578c0578b0578305782057800577d0577c0577b05777057760577505774057730577205771057700576f0576d0576b0576a05769,
  0x057bf057bd057bc057ba057b9057b8057b6057b5057ae057a5057a4057a3057a2057a00579f0579e0579d0579b0579a0579905798057970579505794,
  0x057e9057e7057e6057e5057e4057e3057e2057e1057e0057df057dc057d5057d4057d2057d0057cf057ce057cc057cb057c7057c6057c3057c2057c1,
  0x058050580405803058020580105800057fe057fd057fc057fb057fa057f9057f8057f7057f6057f5057f4057f3057f2057f1057f0057ee057ed057ec,
  0x05828058270582605825058240582305821058200581e0581d0581c0581b0581905814058100580e0580d0580c0580b0580a05809058080580705806,
  0x0584c0584b0584a05849058480583f0583d0583b058390583805837058360583505834058330583205831058300582f0582e0582d0582c0582a05829,
  0x0586f0586d0586b05868058650586405863058620585e0585d0585c0585b0585a05859058580585705855058540585305852058510584f0584e0584d,
  0x0588f0588e0588b0588a0588905888058870588605885058830588205881058800587f0587e0587d0587c0587b0587a0587905876058750587405871,
  0x058ba058b3058b1058af058ae058ac058ab058aa058a9058a8058a6058a5058a3058a1058a00589f0589e0589d0589c0589805894058930589105890,
  0x058db058da058d9058d8058d6058d5058d4058d3058d2058d1058cf058ce058c9058c8058c7058c6058c5058c2058c1058bf058be058bd058bc058bb,
  0x0590605903058ff058fe058fd058fc058fb058fa058f9058f4058ef058ec058eb058e9058e8058e7058e4058e3058e2058e0058df058de058dd058dc,
  0x0592c0592b0592a0592905927059250592405922059200591f0591c0591a059190591705916059150591405912059110590f0590e0590d0590c0590a,
  0x059580595705955059540595305951059500594f0594e0594a0594905948059470594505944059400593e0593c0593805937059310592f0592e0592d,
  0x0597e0597d0597c0597b0597905978059770597605974059730597205971059700596e0596d0596b0596a05969059670596205961059600595c0595a,
  0x059a3059a2059a1059a00599e0599d059990599805997059960599305992059900598f0598e0598d0598a0598505984059830598205981059800597f,
  0x059c6059c5059c3059c1059c0059be059bd059bc059bb059ba059b9059b6059b5059b4059b3059b2059b1059af059ae059a8059a7059a6059a5059a4,
  0x059e1059e0059de059dd059dc059db059da059d9059d8059d6059d4059d3059d2059d1059d0059cf059ce059cd059cc059cb059ca059c9059c8059c7,
  0x059ff059fe059fd059fc059fb059fa059f9059f7059f6059f5059f4059f3059f2059f1059ee059ed059ec059ea059e9059e8059e6059e5059e4059e3,
  0x05a2d05a2905a2505a2405a2305a2005a1f05a1e05a1c05a1b05a1905a1805a1705a1605a1505a1305a1105a0f05a0c05a0a05a0905a0305a0105a00,
  0x05a5205a5105a5005a4d05a4c05a4a05a4905a4805a4705a4605a4405a4305a4205a4105a4005a3e05a3c05a3905a3805a3705a3605a3505a3305a2e,
  0x05a7705a7005a6d05a6c05a6a05a6905a6705a6605a6505a6405a6305a6205a6005a5f05a5e05a5d05a5c05a5b05a5a05a5805a5705a5605a5505a53,
  0x05a9b05a9a05a9705a9605a9505a9405a9305a9205a9105a9005a8f05a8e05a8c05a8b05a8a05a8805a8405a8305a7f05a7d05a7c05a7b05a7a05a78,
  0x05ab905ab805ab705ab605ab505ab405ab305ab205ab105ab005aaf05aae05aac05aab05aa905aa705aa605aa505aa205aa005a9f05a9e05a9d05a9c,
  0x05ad905ad805ad705ad605ad505ad305acd05acc05acb05aca05ac905ac805ac705ac605ac405ac205ac105ac005abf05abe05abd05abc05abb05aba,
  0x05af705af605af505af405af305aee05aed05aec05aeb05aea05ae905ae805ae605ae505ae305ae205ae105ae005adf05ade05add05adc05adb05ada,
  0x05b1b05b1a05b1905b1705b1605b1405b1305b1005b0f05b0c05b0b05b0905b0805b0705b0505b0305b0205b0105aff05afd05afb05afa05af905af8,
  0x05b4005b3f05b3e05b3d05b3c05b3805b3405b3205b3005b2f05b2e05b2d05b2c05b2a05b2805b2705b2605b2505b2405b2305b2105b2005b1e05b1d,
  0x05b6305b6205b5f05b5d05b5c05b5b05b5a05b5805b5705b5605b5505b5405b5305b5105b5005b4e05b4d05b4c05b4b05b4805b4705b4605b4505b43,
  0x05b8405b8305b8205b8105b8005b7f05b7d05b7c05b7b05b7a05b7805b7705b7605b7505b7305b7205b7105b7005b6e05b6c05b6b05b6905b6505b64,
  0x05ba705ba605ba505ba405ba305ba205b9d05b9c05b9b05b9a05b9905b9805b9705b9505b9305b9205b8f05b8e05b8c05b8b05b8905b8805b8705b85,
  0x05bcd05bcc05bcb05bca05bc705bc605bc505bc405bc205bc105bc005bbf05bb905bb805bb605bb505bb405bb305bb005bae05bad05bac05baa05ba8,
  0x05bea05be905be805be705be605be505be405be305be205be105be005bdf05bde05bd905bd805bd705bd605bd505bd405bd305bd205bd105bd005bce,
  0x05c0d05c0c05c0b05c0a05c0905c0805c0705c0505c0405c0305c0105bff05bfa05bf805bf605bf505bf305bf205bf105bf005bef05bee05bec05beb,
  0x05c3a05c3905c3805c3705c3305c3105c3005c2c05c2a05c2805c2505c2405c2205c1f05c1a05c1605c1505c1405c1305c1205c1105c1005c0f05c0e,
  0x05c5905c5805c5605c5505c5405c5105c5005c4f05c4e05c4d05c4c05c4b05c4905c4805c4705c4605c4505c4405c4105c4005c3f05c3e05c3c05c3b,
  0x05c8505c7e05c7c05c7b05c7a05c7905c7405c7305c7105c6f05c6e05c6d05c6c05c6a05c6905c6805c6705c6505c6405c6305c6205c6005c5d05c5c,
  0x05ca605ca505ca405ca305ca205ca105ca005c9f05c9d05c9c05c9505c9405c9305c9205c9105c9005c8f05c8d05c8c05c8b05c8a05c8905c8805c86,
  0x05ccc05ccb05cca05cc905cc805cc705cc605cba05cb805cb705cb605cb505cb305cb105cb005caf05cae05cad05cac05cab05caa05ca905ca805ca7,
  0x05cf405cf105cf005cef05cee05ced05cec05cea05ce905ce805cdf05cde05cdb05cda05cd905cd805cd705cd605cd405cd305cd205cd005ccf05cce,
  0x05d1905d1805d1705d1605d1405d1205d1105d1005d0f05d0e05d0d05d0c05d0b05d0705d0605d0105d0005cff05cfd05cfb05cf905cf805cf705cf6,
  0x05d3805d3705d3605d3505d3405d3305d3205d3105d3005d2e05d2905d2805d2705d2605d2505d2405d2305d2205d2005d1f05d1e05d1d05d1b05d1a,
  0x05d6205d5e05d5905d5505d5205d5105d5005d4e05d4c05d4b05d4a05d4905d4705d4605d4505d4305d4205d4105d4005d3f05d3d05d3c05d3a05d39,
  0x05d8805d8705d8605d8405d8205d8105d8005d7f05d7e05d7d05d7c05d7a05d7905d7705d7205d7105d6f05d6c05d6b05d6905d6805d6705d6505d63,
  0x05dad05dac05daa05da905da805da705da205da105da005d9f05d9e05d9d05d9c05d9a05d9905d9705d9505d9405d9305d9205d8d05d8b05d8a05d89,
  0x05dd205dd105dcf05dcd05dcb05dc905dc705dc605dc305dc205dc005dbd05dbc05dba05db805db705db605db505db405db205db105db005daf05dae,
  0x05df705df405df305df205df105df005dee05deb05de805de705de605de505de205de105de005ddf05dde05ddd05ddb05dd805dd705dd605dd505dd4,
  0x05e2005e1f05e1d05e1b05e1a05e1905e1805e1705e1605e1505e1405e1105e0e05e0c05e0a05e0905e0605e0405e0305e0205dff05dfe05dfd05df9,
  0x05e4b05e4a05e4505e4405e4305e4105e4005e3e05e3d05e3805e3705e3605e3405e3305e2e05e2d05e2b05e2905e2805e2505e2405e2305e2205e21,
  0x05e6b05e6a05e6905e6805e6705e6605e6305e6205e6105e6005e5f05e5d05e5c05e5b05e5905e5805e5705e5505e5405e5305e4f05e4e05e4d05e4c,
  0x05e8805e8705e8405e8305e8205e8005e7f05e7e05e7d05e7c05e7b05e7a05e7905e7805e7605e7505e7405e7305e7205e7005e6f05e6e05e6d05e6c,
  0x05ead05eac05eab05eaa05ea805ea705ea605ea505ea405ea305ea205ea005e9c05e9b05e9a05e9705e9605e9505e8f05e8d05e8c05e8b05e8a05e89,
  0x05ece05ecc05ecb05eca05ec905ec805ec705ec605ec505ec405ec205ec105ebe05eb905eb805eb705eb605eb505eb405eb305eb205eb105eb005eae,
  0x05ee805ee705ee605ee505ee305ee205ee105ee005edf05ede05edd05edc05edb05eda05ed905ed805ed705ed605ed505ed405ed305ed205ed105ed0,
  0x05f0b05f0a05f0805f0705f0505f0405f0205f0105eff05efe05efc05efb05efa05ef905ef705ef605ef405ef305ef205ef105eef05eee05eec05ee9,
  0x05f3305f3105f3005f2e05f2d05f2905f2805f2705f2605f2405f2305f2205f1f05f1d05f1b05f1a05f1805f1705f1505f1405f1305f1205f0f05f0d,
  0x05f5d05f5905f5805f5705f5605f5405f5005f4f05f4e05f4c05f4b05f4a05f4905f4805f4605f4405f4305f4005f3c05f3a05f3805f3705f3605f35,
  0x05f7d05f7c05f7b05f7905f7805f7705f7605f7405f7305f7205f7105f7005f6f05f6d05f6c05f6b05f6a05f6905f6705f6505f6405f6305f6205f61,
  0x05f9f05f9e05f9c05f9b05f9905f9805f9705f9605f9205f9105f9005f8c05f8b05f8a05f8905f8805f8705f8605f8505f8205f8105f8005f7f05f7e,
  0x05fbf05fbe05fbd05fbc05fbb05fb905fb705fb605fb505fb205faf05fae05fad05fac05fab05faa05fa905fa805fa705fa605fa505fa405fa105fa0,
  0x05fe405fe305fe105fe005fdf05fde05fdd05fd905fd805fd705fd605fd505fd405fd205fd105fd005fcf05fcd05fcc05fc905fc505fc305fc105fc0,
  0x0600e0600d0600c0600b0600a060090600005fff05ffd05ffb05ffa05ff805ff705ff505ff405ff305ff105fef05fee05fed05feb05fea05fe805fe5,
  0x0602806027060260602506024060230602206021060200601e0601d0601c0601b0601a0601906017060160601506014060130601206011060100600f,
  0x0604a060490604706046060450604406043060420604106040060390603706035060340603306032060310602f0602e0602d0602c0602b0602a06029,
  0x0606b0606a06069060680606706066060650606406063060620605f0605e0605d0605b0605a060590605806055060540605306052060500604d0604c,
  0x060950609406092060900608e0608d0608c0608a0608906088060870608606085060840608306081060800607f06072060700606f0606e0606d0606c,
  0x060ba060b9060b8060b7060b6060b5060b4060b3060b2060b1060b0060a8060a4060a3060a2060a00609f0609e0609d0609c0609b0609a0609706096,
  0x060d5060d4060d3060d1060cf060ce060cd060cc060cb060ca060c9060c8060c7060c6060c5060c4060c3060c1060c0060bf060be060bd060bc060bb,
  0x060fa060f9060f8060f7060f6060f5060f4060f3060f2060f1060f0060e6060e4060e2060e1060e0060df060de060dd060dc060db060da060d9060d8,
  0x061180611606115061140611306112061100610f0610e0610d0610b0610a0610906108061060610506104061030610106100060ff060fe060fc060fb,
  0x061440614206141061400613f0613e0613b061370613606134061320612f0612e0612c0612b061290612806127061230611f0611d0611c0611b0611a,
  0x061600615f0615e0615d0615c0615b0615a0615806156061550615406153061520614f0614e0614d0614c0614b0614a0614906148061470614606145,
  0x0617e0617c0617a0617906177061760617506174061730617206171061700616e0616c0616b0616a0616806167061660616506164061630616206161,
  0x061a4061a2061a10619f0619d0619b0619a0619606194061930619206191061900618e0618d0618c0618b0618a061890618706183061820618106180,
  0x061c3061c2061c1061bf061be061bc061ba061b8061b6061b5061b4061b3061b2061b1061b0061af061ae061ad061ac061ab061aa061a9061a8061a7,
  0x061ea061e9061e8061e7061e6061e5061e4061e3061e0061df061de061d8061d6061d3061d0061cd061cc061cb061ca061c9061c8061c7061c6061c5,
  0x06209062080620706204062030620106200061ff061fe061fd061fc061fb061fa061f9061f8061f7061f6061f5061f2061f1061f0061ee061ed061eb,
  0x0622b0622a06229062270622506224062230622206221062200621f0621b0621a062190621606215062140621206211062100620e0620d0620c0620a,
  0x062500624e0624d0624b0624a06249062480624706246062430624206241062400623f0623e0623d0623a06236062340623306232062300622e0622d,
  0x062730627206271062700626f0626e0626d062660626506264062630626206261062600625e0625c0625b0625a062590625806254062530625206251,
  0x06292062910628f0628e0628c0628a06289062880628706286062840628306281062800627f0627e0627d0627c0627b0627a06279062770627606274,
  0x062bc062bb062b9062b8062b6062b5062b4062b3062b1062b0062af062ae062ad062ac062ab062aa062a9062a8062980629706296062950629406293,
  0x062d7062d6062d5062d4062d3062d2062d1062d0062cf062ce062cd062cc062cb062ca062c9062c8062c7062c6062c5062c4062c2062bf062be062bd,
  0x062fc062fb062fa062f9062f8062f7062f6062f5062f4062f3062f2062f1062f0062ef062ee062ed062ec062eb062df062dc062db062da062d9062d8,
  0x0632a06329063280631606315063140631306311063100630f0630e0630d0630c0630b06309063080630706303063020630106300062ff062fe062fd,
  0x0634806347063460634506344063430634206341063400633e0633d0633c0633b0633a0633906338063360633406333063320632f0632d0632c0632b,
  0x0636e0636d0636c0636b063690636806367063650635a06359063580635706356063550635406351063500634f0634e0634d0634c0634b0634a06349,
  0x0638c0638b0638a0638906388063870638506384063830638206381063800637d0637c0637b0637a063780637706376063750637206371063700636f,
  0x063a8063a7063a5063a4063a3063a2063a1063a00639f0639e0639d0639c0639b06399063980639706396063940639206391063900638f0638e0638d,
  0x063cd063cc063cb063ca063c9063c8063c7063c6063c5063c4063c3063c2063c0063be063bd063b1063b0063af063ae063ad063ac063ab063aa063a9,
  0x063ea063e9063e8063e7063e5063e4063e3063e1063e0063df063dd063dc063db063da063d9063d8063d7063d6063d5063d3063d2063d0063cf063ce,
  0x0641306412064100640f0640e0640d0640c0640b0640a0640906406063f9063f8063f6063f5063f4063f3063f2063f1063f0063ef063ee063ed063eb,
  0x0642e0642d0642c0642b0642a0642806427064260642506424064230642206421064200641f0641e0641c0641b0641a0641806417064160641506414,
  0x06454064530645206451064500644e0644d0644b0644306441064400643f0643e0643d0643a06439064380643706436064350643406433064300642f,
  0x06475064740647306472064700646f0646e0646d0646c0646b064690646806467064660646506461064600645f0645e0645d0645c0645b0645906458,
  0x064980649706496064950649306492064900648f0648c0648b0648a06489064880648706485064820647f0647d0647b0647a06479064780647706476,
  0x064bc064bb064b3064b2064b1064b0064af064ae064ad064ac064ab064a9064a6064a5064a4064a3064a2064a00649f0649e0649d0649c0649a06499,
  0x064db064da064d9064d8064d7064d6064d4064d2064d0064cf064ce064cd064cb064ca064c9064c7064c5064c4064c3064c2064c1064bf064be064bd,
  0x064fd064fc064fb064fa064f8064f7064f4064f3064f2064f1064f0064ef064ed064ec064eb064e9064e8064e6064e5064e4064e3064e2064e1064e0,
  0x0651d0651c0651b06519065180651706516065150651406513065100650f0650e0650d0650c06509065070650606504065030650106500064ff064fe,
  0x0653d0653b065390653806537065360653406533065320652f0652e0652d0652c0652b0652a06529065260652506524065230652206521065200651e,
  0x065620655f0655e0655d0655c06559065580655706556065550655406553065510654f0654d0654a0654906548065460654506543065410653f0653e,
  0x06581065800657f0657c0657b0657a06579065780657706576065750657406573065720656f0656d0656c0656a065680656706566065650656406563,
  0x065a4065a2065a1065a00659f0659e0659d0659c0659b06599065970659606595065940659206591065900658c065880658706585065840658306582,
  0x065c4065c3065c2065c1065bf065bd065bc065bb065b9065b8065b7065b6065b5065b3065b2065b0065af065ae065ac065ab065aa065a8065a7065a5,
  0x065e6065e5065e3065e2065e1065e0065df065de065dd065db065da065d7065d6065d3065d2065d1065d0065cf065ce065cd065cc065cb065c6065c5,
  0x0660806607066060660506604066030660206600065fd065fc065fb065fa065f5065f4065f3065f2065f1065f0065ef065ee065ed065ec065e9065e8,
  0x066260662506624066230662206621066200661f0661d0661c066180661506614066130661206611066100660f0660e0660d0660c0660b0660a06609,
  0x0664c0664b0664a066490664706645066440664306642066410663a066390663606635066340663306632066310662f0662e0662d0662b0662806627,
  0x06671066700666f0666e0666c0666a066680666706666066650666406662066610665f0665e0665d0665c0665b0665a066590665706652066510664f,
  0x06691066900668d0668c0668b0668a066890668806687066860668506684066800667e0667c0667b0667a06679066780667706676066740667306672,
  0x066b4066b3066b2066b1066b0066af066ae066ad066ab066aa066a9066a8066a4066a2066a1066a00669f0669d066990669806697066960669506694,
  0x066da066d9066d8066d6066d2066cf066cd066cc066cb066ca066c9066c8066c7066c6066c4066c0066be066bd066bb066ba066b9066b8066b7066b5,
  0x066fe066fc066f9066f8066f7066f6066f4066f3066f2066f0066ee066ed066ec066eb066e9066e8066e6066e4066e3066e0066de066dd066dc066db,
  0x067200671f0671d0671b067180671706715067140671306712067100670f0670d0670b0670a0670906708067050670406703067020670106700066ff,
  0x067440673f0673e0673d0673c0673b0673a0673906738067350673406733067310672e0672d0672c0672b0672a067280672706726067230672206721,
  0x06762067600675f0675e0675d0675c0675a067590675706756067550675306751067500674f0674e0674d0674c0674b0674906748067470674606745,
  0x0678406783067810677f0677e0677d0677c0677b0677a067790677806777067760677506774067730677206771067700676f0676d0676c0676a06767,
  0x067af067ae067ac0679f0679d0679c0679a0679906798067970679506794067930679206791067900678e0678d0678c0678b06789067870678606785,
  0x067cc067cb067ca067c9067c8067c6067c5067c4067c3067c2067c1067c0067bb067ba067b9067b8067b7067b6067b5067b4067b3067b2067b1067b0,
  0x067e9067e7067e6067e5067e4067e3067e2067df067de067dd067dc067db067da067d9067d8067d7067d4067d3067d2067d1067d0067cf067ce067cd,
  0x068160681406813068120680d06801067ff067fc067fa067f8067f7067f6067f5067f4067f3067f2067f1067f0067ef067ee067ed067ec067eb067ea,
  0x06835068340683306832068310682f0682e0682d0682b0682a068290682806826068250682206821068200681f0681d0681c0681b0681a0681806817,
  0x06851068500684f0684e0684d0684c0684b0684906848068460684506844068430684206841068400683e0683d0683c0683b0683a068390683806837,
  0x068830688206881068800687f0687e0687d0687c0687b06879068780687706876068750687406872068710686f0686e0686d0686b0685d0685406853,
  0x068a4068a3068a2068a1068a00689f0689d0689c0689b068970689606894068930689206891068900688f0688c0688b0688a06889068870688606885,
  0x068ca068c9068c8068c7068c6068c4068c3068bd068b5068b4068b3068b2068b1068b0068af068ae068ad068ac068ab068aa068a9068a8068a7068a6,
  0x068e7068e6068e4068e3068e1068e0068df068de068dd068dc068da068d8068d7068d6068d5068d4068d3068d2068d1068d0068ce068cd068cc068cb,
  0x069020690106900068fd068fc068fb068fa068f9068f8068f7068f6068f5068f4068f3068f2068f1068f0068ef068ee068ec068eb068ea068e9068e8,
  0x06932069300692f0692a06925069170691506914069130691206911069100690f0690e0690d0690c0690b0690a069080690706906069050690406903,
  0x0694f0694e0694c0694b0694a069490694806945069440694206941069400693f0693e0693d0693c0693b06939069380693706936069350693406933,
  0x0696b0696a06969069680696606965069630696206961069600695f0695e0695d0695c0695b0695a0695906958069570695606954069530695206951,
  0x069940699306991069900698e0698d0698606983069820697b0697a0697906978069770697606975069740697306971069700696f0696e0696d0696c,
  0x069af069ae069ad069ac069ab069aa069a9069a8069a7069a6069a5069a4069a3069a1069a00699e0699c0699b0699a0699906998069970699606995,
  0x069ce069cd069cc069cb069ca069c9069c6069c4069c3069c2069c1069bf069be069bd069bc069bb069b9069b7069b6069b5069b4069b3069b1069b0,
  0x069f9069f8069f7069f6069f4069f3069f2069f1069ee069ed069ec069eb069e8069e7069e6069e5069e4069e2069e1069d9069d4069d3069d0069cf,
  0x06a1606a1506a1406a1306a1106a0f06a0d06a0b06a0a06a0906a0806a0706a0606a0506a0406a0206a0106a00069ff069fe069fd069fc069fb069fa,
  0x06a3d06a3c06a3b06a3a06a3906a3806a3506a3406a3206a2c06a2806a2706a2606a2506a2306a2106a2006a1f06a1e06a1d06a1b06a1906a1806a17,
  0x06a5d06a5b06a5a06a5906a5806a5606a5506a5406a5106a5006a4f06a4e06a4d06a4b06a4906a4806a4706a4606a4506a4406a4106a4006a3f06a3e,
  0x06a8906a8706a8506a8406a8306a8106a8006a7f06a7e06a7606a6f06a6d06a6b06a6a06a6906a6806a6706a6606a6406a6206a6106a6006a5f06a5e,
  0x06aa506aa406aa306aa206aa106aa006a9f06a9e06a9d06a9c06a9b06a9a06a9706a9606a9506a9406a9306a9206a9106a9006a8e06a8d06a8c06a8a,
  0x06acd06acc06acb06ac806ac706ac606ac506ac306ac206abd06abb06aba06ab906ab806ab706ab606ab406ab306aaf06aae06aad06aac06aa806aa6,
  0x06af306af106af006aef06aee06aec06aeb06aea06ae806ae706ae506ae106ae006adf06ade06add06adc06adb06ada06ad906ad306ad106ad006acf,
  0x06b1d06b1a06b1906b1806b1706b1606b1306b1206b1106b1006b0f06b0b06b0a06b0906b0806b0406b0306b0206b0006afc06afb06afa06af906af8,
  0x06b3f06b3e06b3d06b3c06b3b06b3a06b3906b3806b3706b3606b3506b3406b3306b3206b3106b2f06b2d06b2c06b2806b2506b2306b2106b2006b1e,
  0x06b6006b5f06b5e06b5c06b5b06b5906b5606b5506b5406b5106b5006b4e06b4d06b4c06b4b06b4a06b4906b4806b4706b4606b4506b4306b4206b41,
  0x06b8806b8606b8406b8306b8206b8006b7f06b7e06b7b06b7906b7806b7706b7606b7406b7206b6d06b6a06b6706b6606b6506b6406b6306b6206b61,
  0x06baa06ba706ba606ba506ba406ba306ba206ba006b9f06b9e06b9b06b9906b9806b9706b9606b9506b9406b9106b8f06b8e06b8d06b8c06b8a06b89,
  0x06bcb06bca06bc906bc806bc706bc606bc506bc406bc306bc006bbf06bbd06bbc06bba06bb706bb606bb506bb306bb206bb006baf06bae06bad06bab,
  0x06bec06beb06be806be706be606be406be306be206be106be006bde06bdc06bdb06bda06bd806bd706bd606bd406bd306bd206bd006bcf06bcd06bcc,
  0x06c0d06c0c06c0b06c0906c0806c0606c0506c0406c0306c0206c0106c0006bff06bfe06bfd06bfc06bfb06bf906bf806bf706bf306bf206bf006bef,
  0x06c2c06c2b06c2a06c2806c2706c2606c2506c2406c2306c2106c2006c1f06c1d06c1b06c1a06c1906c1806c1606c1506c1406c1306c1106c1006c0f,
  0x06c5006c4f06c4e06c4d06c4c06c4b06c4a06c4906c4606c4306c4206c4106c4006c3f06c3e06c3b06c3806c3706c3606c3406c3306c3006c2f06c2e,
  0x06c7006c6f06c6e06c6d06c6b06c6a06c6906c6806c6706c6606c6506c6106c6006c5f06c5e06c5d06c5c06c5b06c5a06c5906c5706c5506c5406c52,
  0x06c8c06c8b06c8a06c8906c8806c8706c8606c8506c8406c8306c8206c8106c8006c7e06c7d06c7b06c7a06c7906c7806c7606c7406c7306c7206c71,
  0x06cb606cb406cb306cb106cb006cae06cad06cac06cab06c9d06c9c06c9b06c9a06c9906c9806c9606c9506c9406c9306c9206c9006c8f06c8e06c8d,
  0x06cd006ccf06ccd06ccc06ccb06cca06cc906cc706cc606cc506cc406cc306cc206cc106cc006cbf06cbe06cbd06cbc06cbb06cba06cb906cb806cb7,
  0x06ced06cec06ceb06ce906ce806ce706ce506ce306ce206ce106ce006cde06cdd06cdc06cdb06cda06cd906cd706cd606cd506cd406cd306cd206cd1,
  0x06d1206d1106d1006d0f06d0e06d0d06d0c06d0b06d0a06d0906d0806d0706d0406d0306d0106d0006cf906cf506cf306cf206cf106cf006cef06cee,
  0x06d3206d3106d3006d2f06d2e06d2d06d2c06d2b06d2a06d2906d2806d2706d2506d2206d2006d1f06d1e06d1d06d1b06d1a06d1906d1806d1706d16,
  0x06d6006d5f06d5e06d5c06d5b06d5a06d5906d5806d4206d4106d4006d3f06d3e06d3d06d3c06d3b06d3a06d3906d3806d3706d3606d3506d3406d33,
  0x06d7b06d7a06d7906d7806d7706d7606d7506d7406d7106d7006d6f06d6e06d6d06d6c06d6a06d6906d6806d6706d6606d6506d6406d6306d6206d61,
  0x06d9506d9406d9306d9206d9106d9006d8e06d8d06d8c06d8b06d8a06d8906d8806d8706d8606d8506d8406d8306d8206d8006d7f06d7e06d7d06d7c,
  0x06dc506dc406dc206dc006dbf06dbe06dbd06dbc06dbb06dba06db806db706db506db406db306db206daf06dae06dac06dab06daa06d9806d9706d96,
  0x06dde06ddd06ddc06ddb06dda06dd906dd806dd706dd606dd506dd406dd306dd206dd106dd006dcf06dcd06dcc06dcb06dca06dc906dc806dc706dc6,
  0x06df706df606df506df406df306df206df106df006def06dee06ded06dec06deb06dea06de906de806de606de506de406de306de206de106de006ddf,
  0x06e2a06e2806e2706e2606e2506e2406e2306e2206e2106e2006e1f06e1d06e1c06e1b06e1a06e1906e0506e0306e0006dfd06dfc06dfb06dfa06df9,
  0x06e4406e4306e4106e4006e3f06e3e06e3d06e3c06e3b06e3a06e3906e3806e3606e3506e3406e3306e3206e3106e3006e2f06e2e06e2d06e2c06e2b,
  0x06e5f06e5e06e5d06e5c06e5b06e5a06e5906e5806e5606e5506e5406e5306e5206e5106e5006e4f06e4e06e4d06e4b06e4a06e4906e4706e4606e45,
  0x06e8d06e8906e8806e7c06e7906e7806e7706e7406e7306e7206e7106e6f06e6e06e6b06e6906e6806e6706e6606e6506e6406e6306e6206e6106e60,
  0x06eaa06ea706ea606ea506ea406ea306ea206ea106ea006e9f06e9e06e9d06e9c06e9b06e9906e9806e9706e9606e9406e9306e9206e9006e8f06e8e,
  0x06ec606ec506ec406ec306ec206ec106ec006ebf06ebe06ebd06ebc06eba06eb906eb706eb606eb506eb406eb306eb206eb106eb006eaf06eae06eab,
  0x06eee06eed06eec06eeb06edc06edb06ed906ed806ed606ed506ed406ed306ed206ed106ed006ecf06ece06ecd06ecc06ecb06eca06ec906ec806ec7,
  0x06f0806f0706f0606f0506f0406f0306f0206f0106f0006eff06efe06efd06efc06efb06efa06ef906ef806ef706ef606ef506ef406ef206ef106eef,
  0x06f2906f2706f2606f2506f2306f2206f2106f2006f1f06f1e06f1c06f1a06f1906f1806f1606f1506f1406f1306f1206f0f06f0e06f0d06f0a06f09,
  0x06f4306f4106f4006f3f06f3e06f3d06f3c06f3b06f3a06f3906f3806f3706f3606f3506f3306f3206f3106f3006f2f06f2e06f2d06f2c06f2b06f2a,
  0x06f6706f6606f6406f6306f6206f6106f6006f5f06f5e06f5d06f5c06f5b06f5a06f5806f5706f5506f5406f5306f5206f5106f5006f4f06f4e06f44,
  0x06f8506f8406f8206f8006f7f06f7e06f7d06f7c06f7b06f7a06f7806f7706f7606f7406f7306f7206f7006f6f06f6e06f6d06f6c06f6b06f6a06f69,
  0x06fa406fa306fa206fa106fa006f9f06f9e06f9d06f9706f9606f9506f9406f9306f9206f9006f8e06f8d06f8c06f8b06f8a06f8906f8806f8706f86,
  0x06fc006fbf06fbd06fbc06fba06fb906fb806fb606fb406fb306fb206fb106fb006faf06fae06fad06fac06fab06faa06fa906fa806fa706fa606fa5,
  0x06fe006fdf06fde06fdd06fdc06fdb06fd806fd506fd406fd306fcf06fce06fcd06fcc06fcb06fca06fc906fc806fc706fc606fc406fc306fc206fc1,
  0x06fff06ffe06ffc06ffb06ffa06ff806ff706ff406ff206ff106ff006fef06fee06fed06fec06feb06fe906fe806fe706fe606fe406fe306fe206fe1,
  0x0701d0701c0701b0701a070190701807017070160701507014070110700f0700e0700d0700c0700b0700a07009070070700607005070040700107000,
  0x0703b0703a0703907038070370703507034070330703207031070300702f0702b0702a0702907028070270702607024070230702207021070200701f,
  0x0705d0705b0705a0705807057070560705507052070510704c0704b0704a0704907048070460704507044070430704207041070400703f0703e0703c,
  0x070810707e0707d0707c0707a0707907078070760707407071070700706b0706a0706907068070660706507064070630706207061070600705f0705e,
  0x070ac070ab070a9070a7070a4070a10709f0709a07099070980709607095070940709307092070910708e0708b0708a0708607085070840708307082,
  0x070d1070cf070ce070cd070cc070cb070ca070c8070c7070c6070c5070be070bd070ba070b8070b7070b5070b4070b3070b1070b0070af070ae070ad,
  0x070f8070f7070f6070f4070f3070f0070ef070e4070e2070e1070e0070df070de070dd070dc070da070d9070d8070d7070d6070d5070d4070d3070d2,
  0x0711e0711c0711b0711a071190711707113071100710e0710d0710c0710b0710a0710907106071040710207100070ff070fd070fc070fb070fa070f9,
  0x071470714607145071440714307142071410713a071360713207131071300712f0712e0712c0712b071280712607125071230712207121071200711f,
  0x07164071630716207161071600715f0715e0715d0715c0715a071590715807156071540715307152071500714f0714e0714d0714c0714b0714a07149,
  0x071900718f0718a07189071870718607185071840718207181071800717d0717b0717807172071700716e0716c0716a0716907168071670716607165,
  0x071b2071b1071b0071af071ac071aa071a9071a8071a7071a5071a4071a1071a00719f0719e0719d0719c0719b0719a0719907197071960719407192,
  0x071cf071ce071cb071ca071c9071c8071c7071c6071c5071c4071c3071c2071c1071c0071bf071be071bd071bc071ba071b9071b8071b5071b4071b3,
  0x071f0071ee071ed071ec071e8071e7071e6071e5071e4071e2071e1071e0071df071dd071dc071db071da071d9071d8071d6071d5071d4071d2071d0,
  0x072150721407213072100720e0720d0720c0720a072070720607205072030720207201071ff071fe071fd071fc071fb071f9071f8071f4071f2071f1,
  0x0723b0723a07239072380723607235072300722e0722d0722c0722a072290722807227072260722407223072220721f0721e0721d0721b0721a07219,
  0x0725b0725a072590725807257072560725507253072520724f0724c0724b0724a07249072480724707246072440724207241072400723f0723e0723d,
  0x0727d0727c0727b07279072780727707276072740727307272072700726f0726e0726c0726a0726907267072630726207261072600725f0725e0725d,
  0x0729b0729a07298072970729607295072930729207291072900728e0728d0728c0728b07289072880728607285072840728207281072800727f0727e,
  0x072c2072c1072c0072bf072bd072ba072b5072b4072b0072af072ae072ac072aa072a9072a8072a7072a6072a5072a4072a3072a2072a10729e0729d,
  0x072e4072e3072e1072e0072df072dc072da072d9072d8072d7072d6072d4072d2072d1072d0072ce072cc072cb072ca072c9072c6072c5072c4072c3,
  0x0730c0730b0730a07308073070730107300072ff072fe072fd072fc072fb072fa072f9072f8072f7072f6072f4072f3072eb072ea072e9072e8072e6,
  0x073300732e0732d0732b0732a073290732807327073260732507323073220731e0731d0731c0731b073190731807317073160731307312073110730f,
  0x07351073500734e0734d0734c0734a0734907345073440734307342073400733f0733e0733c0733b0733a07337073360733507334073330733207331,
  0x07372073700736f0736e0736c0736b0736a07369073680736707366073650736207361073600735f0735e0735d0735b0735a07359073580735707352,
  0x0738e0738b0738a073890738807387073860738507384073830738207381073800737f0737e0737d0737c0737b0737a0737807377073760737507373,
  0x073b3073b2073ad073ac073ab073aa073a9073a8073a7073a6073a5073a4073a2073a1073a00739f0739d0739c073970739607395073940739307392,
  0x073cf073ce073cd073cc073cb073ca073c9073c8073c7073c6073c5073c3073c2073c0073bf073be073bc073bb073b9073b8073b7073b6073b5073b4,
  0x073ee073ed073eb073ea073e9073e8073e7073e5073e4073e3073e0073de073dd073dc073db073da073d9073d8073d7073d6073d5073d4073d3073d2,
  0x0740d0740c0740b0740a074090740807407074060740507404074030740107400073ff073fe073fd073fc073fa073f8073f7073f6073f5073f4073ef,
  0x0743207431074300742f0742e0742d0742c0742b0742a0742907428074260742507424074230742207421074200741d0741b0741a074170741607415,
  0x07454074530745207451074500744f0744e0744d0744b0744a074490744707446074440744207441074400743f0743a0743907436074350743407433,
  0x0747207471074700746f0746e0746d0746c0746a074690746707465074640746307462074600745f0745e0745d0745c0745b0745a074590745707455,
  0x074950749407492074900748b0748a0748907488074870748607485074830748207481074800747f0747e0747d0747c0747907476074750747407473,
  0x074b6074b5074b2074b1074b0074af074ad074ab074aa074a9074a8074a7074a6074a5074a4074a3074a1074a00749f0749e0749c0749a0749807497,
  0x074db074da074d9074d8074d7074d6074d5074d4074cf074cb074ca074c8074c5074c3074c2074c1074c0074bf074be074bd074bb074ba074b8074b7,
  0x07500074ff074fe074fd074fb074f7074f6074f5074f4074ee074ec074e9074e8074e6074e5074e4074e3074e2074e1074e0074df074de074dd074dc,
  0x0751f0751e0751d0751c0751a0751807517075160751507514075130751207511075100750f0750e0750d0750c0750b0750807507075040750307502,
  0x075400753f0753e0753d0753a075390753807537075330753207531075300752f0752e0752d0752c0752b0752a075290752807526075250752207521,
  0x0756c0756b0756a0756707566075650756407563075620755f0755d0755c0755b0755a07559075540754f0754e0754d0754c0754b0754a0754807547,
  0x07595075940759207591075900758f0758e0758c0758b0758a075870758607584075800757f0757e0757d07579075780757707576075700756f0756e,
  0x075bd075bc075bb075ba075b9075b8075b6075b5075b4075b3075b2075b0075ab075aa075a7075a5075a4075a3075a20759e0759d0759a0759907598,
  0x075db075da075d9075d8075d7075d5075d4075d2075d1075d0075cf075ce075cd075cc075cb075ca075c7075c5075c4075c2075c1075c0075bf075be,
  0x075fb075fa075f9075f8075f7075f6075f5075f4075f3075f2075f1075f0075ef075ed075e7075e6075e4075e3075e2075e1075e0075df075de075dd,
  0x0761b0761a076190761607615076140761307611076100760f0760d0760c0760b0760a076090760807603076020760107600075ff075fe075fd075fc,
  0x076380763507634076330763207631076300762f0762d0762c076290762807627076260762507624076230762207621076200761f0761e0761d0761c,
  0x07661076600765f0765c0765a07659076580765707656076530765207651076500764f0764c0764907648076470764607643076420763d0763c0763a,
  0x0768407682076810767f0767e0767d0767c0767b076790767807676076750767207671076700766f0766e0766d0766c0766a07669076650766407662,
  0x076aa076a6076a5076a4076a10769e0769d0769c0769b0769a0769907696076950769307692076900768f0768e0768b0768a07689076880768707686,
  0x076cd076cc076ca076c9076c8076c6076c5076c4076c3076c2076bf076be076bd076bb076ba076b8076b7076b5076b4076b0076af076ae076ad076ab,
  0x076f1076f0076ef076ee076ed076ec076ea076e9076e7076e6076e5076e4076e3076e1076df076de076dd076dc076db076da076d4076d3076d2076ce,
  0x077130771207711077100770b0770a07709077080770707705077040770307701076fe076fc076fb076fa076f9076f8076f7076f5076f4076f3076f2,
  0x077370773607735077340773307732077310772f0772d07729077280772707726077250772307722077200771f0771e0771d0771b0771a0771907715,
  0x0775907758077560775507754077520774f0774e0774d0774c0774b0774a07747077460774507744077400773e0773d0773c0773b0773a0773907738,
  0x0777e0777d0777c077790776f0776e0776d0776c0776b0776a0776907768077670776607765077630776207761077600775f0775e0775c0775b0775a,
  0x0779e0779d0779c0779b0779a077990779707795077910778f0778e0778d0778c0778b0778907788077870778507784077830778207781077800777f,
  0x077bc077bb077ba077b7077b6077b5077b4077b3077b2077b1077b0077af077ad077ac077ab077aa077a8077a7077a5077a3077a2077a1077a00779f,
  0x077e0077de077dc077db077da077d9077d8077d7077d5077d4077d3077d0077cf077ce077cd077cc077ca077c9077c7077c5077c4077c2077bf077bd,
  0x07802077fd077fc077fb077fa077f9077f8077f7077f4077f3077f2077f1077f0077ef077ee077ed077ec077e9077e8077e7077e6077e5077e3077e2,
  0x0782907828078270782607825078230782207821078200781f0781d07814078130781207811078100780f0780e0780d0780c07809078060780507803,
  0x078500784e0784d0784c0784a078490784807845078430783c07838078370783507834078330783207831078300782f0782e0782d0782c0782b0782a,
  0x078800787f0787e0787c0787b0787907871078700786f0786e0786d0786c0786b0786a0786907868078650786407862078600785e0785d0785c07852,
  0x078a2078a1078a00789f0789e0789a07899078980789707896078950789407893078910788f0788e0788c07889078870788607885078840788307881,
  0x078c5078c4078c3078c1078be078bc078bb078ba078b4078b3078b2078b1078b0078af078ad078ac078ab078aa078a9078a8078a7078a5078a4078a3,
  0x078e3078e2078e1078e0078df078de078dd078db078da078d7078d5078d4078d3078d1078d0078cf078ce078cd078cc078cb078ca078c9078c8078c7,
  0x07905079040790207901078ff078fe078fd078fc078fb078fa078f9078f7078f4078f3078f2078f1078ef078ed078ec078ea078e9078e8078e7078e5,
  0x0792b0792a07929079280792707926079250792407923079210791e0791d0791c0791b079190791707914079130791207911079100790e0790c07909,
  0x0794a0794907948079470794607945079440794207941079400793f0793e0793d0793c0793a07939079380793507934079310792f0792e0792d0792c,
  0x079680796707965079640796307961079600795f0795e0795d0795c0795b0795a07957079560795507954079530795207951079500794f0794c0794b,
  0x0798f0798e0798d0798b0798a07988079860798207981079800797f0797d0797c0797a0797907974079730797207971079700796d0796b0796a07969,
  0x079ad079ac079ab079aa079a9079a8079a7079a6079a4079a2079a1079a00799d0799c0799b0799a0799807997079960799507994079930799207990,
  0x079cd079cc079cb079c9079c8079c6079c5079c1079c0079bf079be079bd079bb079ba079b9079b8079b7079b6079b4079b3079b2079b1079b0079ae,
  0x079f6079ee079ed079ec079eb079ea079e9079e7079e6079e4079e3079e0079df079de079dd079dc079d8079d6079d5079d4079d2079d1079cf079ce,
  0x07a1a07a1907a1807a1707a1507a1407a1307a1207a1107a1007a0d07a0c07a0b07a0a07a0807a0507a0407a0307a0207a00079fb079fa079f8079f7,
  0x07a4807a4707a4607a4407a4007a3f07a3d07a3c07a3b07a3907a3707a3107a3007a2f07a2e07a2b07a2807a2607a2207a2007a1f07a1e07a1c07a1b,
  0x07a7007a6e07a6d07a6c07a6b07a6907a6807a6707a6207a6107a6007a5f07a5c07a5b07a5a07a5807a5707a5607a5407a4e07a4d07a4c07a4b07a4a,
  0x07a9207a9007a8f07a8c07a8b07a8a07a8907a8807a8707a8607a8507a8407a8107a8007a7f07a7e07a7b07a7a07a7907a7807a7607a7507a7407a71,
  0x07ab607ab507ab407ab307ab207ab107aaf07aae07aac07aab07aaa07aa907aa807aa307aa207aa007a9f07a9e07a9907a9807a9707a9607a9507a94,
  0x07aee07aed07aeb07ae607ae507ae407ae307ae007adf07ad907ad807ad107acb07aca07ac707ac507ac407ac107ac007abf07abe07aba07ab807ab7,
  0x07b1907b1807b1307b1207b1107b1007b0f07b0e07b0a07b0907b0807b0607b0507b0407b0107b0007aff07afd07afb07afa07af907af707af607aef,
  0x07b3807b3507b3407b3307b3207b3107b3007b2f07b2e07b2d07b2c07b2b07b2a07b2807b2607b2507b2407b2307b2207b2007b1e07b1d07b1b07b1a,
  0x07b6407b6307b6107b6007b5807b5607b5407b5207b5107b5007b4f07b4e07b4d07b4c07b4b07b4a07b4907b4807b4707b4607b4507b4407b4007b3b,
  0x07b8d07b8c07b8b07b8a07b8807b8707b8507b8407b8207b7807b7707b7607b7507b7407b7307b7207b7107b7007b6e07b6d07b6907b6707b6607b65,
  0x07bb807bb707bb507bb407bb107baf07bad07bac07ba407ba107ba007b9d07b9c07b9b07b9907b9807b9707b9607b9507b9407b9107b9007b8f07b8e,
  0x07be107be007bdf07bde07bdd07bdc07bdb07bda07bd907bd807bd507bd407bce07bcc07bcb07bca07bc907bc707bc607bc407bc107bc007bbe07bb9,
  0x07c0107c0007bff07bfe07bfd07bfb07bf907bf807bf707bf407bf307bf207bf107bf007beb07bea07be907be807be707be607be507be407be307be2,
  0x07c2307c2207c2107c2007c1f07c1e07c1d07c1c07c1907c1507c1107c1007c0f07c0e07c0d07c0c07c0b07c0a07c0907c0707c0607c0507c0307c02,
  0x07c4807c4707c4507c4307c4007c3f07c3e07c3d07c3c07c3b07c3907c3807c3707c3307c3007c2d07c2c07c2b07c2a07c2907c2807c2707c2607c25,
  0x07c6e07c6c07c6b07c6a07c6907c6707c6607c6507c6407c6307c6007c5f07c5c07c5b07c5a07c5907c5707c5407c5307c5007c4d07c4c07c4a07c49,
  0x07c9707c9607c9507c9407c9207c9107c8d07c8c07c8a07c8907c8807c8507c8407c8107c8007c7f07c7d07c7a07c7907c7807c7507c7307c7207c6f,
  0x07cc807cc507cbf07cbe07cbd07cbc07cbb07cba07cb907cb507cb407cb307cb207cb107caf07ca807ca707ca507ca307ca207ca107c9f07c9e07c98,
  0x07cef07cee07cec07cea07ce807ce707ce207ce007cdf07cde07cdd07cdc07cd907cd707cd607cd507cd407cd207cd107cd007cce07ccc07ccb07cca,
  0x07d0d07d0c07d0b07d0a07d0907d0807d0707d0607d0507d0407d0307d0207d0107d0007cfe07cfd07cfb07cf807cf707cf607cf407cf207cf107cf0,
  0x07d2b07d2907d2807d2207d2107d2007d1f07d1e07d1d07d1c07d1b07d1a07d1907d1807d1707d1607d1507d1407d1307d1207d1107d1007d0f07d0e,
  0x07d4607d4507d4407d4307d4207d4107d4007d3f07d3e07d3d07d3c07d3b07d3a07d3907d3807d3607d3507d3307d3207d3107d3007d2f07d2e07d2c,
  0x07d6a07d6907d6807d6707d6607d6307d6207d6107d5f07d5e07d5c07d5b07d5807d5607d5507d5407d5307d5207d5107d5007d4f07d4e07d4a07d47,
  0x07d8e07d8d07d8c07d8807d8607d8507d8407d8307d8107d8007d7f07d7d07d7c07d7b07d7a07d7907d7307d7207d7107d7007d6f07d6e07d6d07d6b,
  0x07db107db007daf07dae07dad07dac07daa07da907da707da607da307da207da107da007d9f07d9e07d9d07d9c07d9607d9407d9307d9207d9107d8f,
  0x07dce07dcc07dcb07dca07dc907dc707dc607dc507dc407dc207dc107dc007dbf07dbe07dbd07dbc07dbb07dba07db907db807db707db507db407db2,
  0x07df307df207df107df007def07dee07dec07dea07de907de807de707de607de307de107de007ddf07dde07ddd07ddb07dda07dd907dd807dd707dd2,
  0x07e1a07e1707e1607e1507e1407e1307e1207e1107e1007e0f07e0e07e0d07e0c07e0b07e0a07e0907e0807e0307dfb07dfa07df907df707df607df4,
  0x07e3607e3507e3407e3307e3207e3107e3007e2f07e2e07e2d07e2b07e2a07e2907e2507e2407e2307e2207e2107e2007e1f07e1e07e1d07e1c07e1b,
  0x07e5307e5207e5107e5007e4c07e4907e4807e4707e4607e4507e4407e4307e4207e4107e4007e3f07e3e07e3d07e3c07e3b07e3a07e3907e3807e37,
  0x07e7407e7307e7207e7007e6f07e6d07e6b07e6a07e6907e6807e6307e6207e6107e6007e5f07e5e07e5c07e5a07e5907e5807e5707e5607e5507e54,
  0x07e9407e9307e9107e8f07e8d07e8c07e8b07e8a07e8807e8707e8607e8207e8107e8007e7e07e7d07e7c07e7b07e7a07e7907e7807e7707e7607e75,
  0x07f4f07f4d07f4c07f4b07f4a07f4807f4507f4407f4307f3f07f3e07f3d07f3a07f3907f3807f3607e9c07e9b07e9a07e9907e9807e9707e9607e95,
  0x07f7007f6e07f6d07f6c07f6b07f6a07f6907f6807f6707f6607f6507f6307f6107f6007f5f07f5e07f5d07f5c07f5b07f5807f5507f5407f5107f50,
  0x07f8f07f8e07f8d07f8c07f8b07f8a07f8907f8807f8707f8607f8507f8307f7f07f7e07f7d07f7c07f7b07f7a07f7907f7707f7607f7507f7307f72,
  0x07fb107fb007faf07fad07fac07fa907fa807fa707fa607fa507fa407fa207fa107fa007f9e07f9d07f9c07f9b07f9a07f9607f9507f9407f9207f91,
  0x07fcd07fcc07fcb07fca07fc907fc707fc507fc307fc207fc107fc007fbf07fbe07fbd07fbc07fbb07fba07fb907fb807fb707fb607fb507fb307fb2,
  0x07fed07fec07feb07fea07fe907fe807fe607fe507fe307fe207fe107fe007fdf07fde07fdc07fdb07fd707fd507fd407fd207fd107fd007fcf07fce,
  0x0800b0800708006080050800408003080010800007fff07ffe07ffd07ffc07ffb07ff907ff807ff707ff507ff407ff307ff207ff107ff007fef07fee,
  0x0802c0802a08029080280802608024080210801f0801e0801c0801b0801908018080170801608015080140801208011080100800f0800e0800d0800c,
  0x0805d0805c0805a08058080560805208051080500804f0804a080480804708046080430803f0803e0803d08039080370803608035080340803308030,
  0x0808a0808908087080860808508084080820807f0807e0807d0807908078080770807608075080730807208071080700806f0806c08067080640805e,
  0x080af080ae080ad080ab080aa080a9080a5080a3080a2080a10809d0809c0809b0809a080990809808096080950809308092080900808f0808c0808b,
  0x080d7080d6080d5080d4080d1080d0080cf080ce080cd080cc080ca080c9080c8080c7080c5080c4080c3080c2080ba080b8080b5080b4080b2080b1,
  0x080fa080f9080f8080f5080f4080f3080f2080f1080f0080ef080ed080e6080e5080e4080e3080e1080e0080de080dd080dc080db080da080d9080d8,
  0x08125081240812308122081210811f0811e0811d0811b081190811808116081150810a081080810608105081020810108100080fe080fd080fc080fb,
  0x0815208151081500814f0814e0814d0814c0814b0814a081470814608144081430813e0813d0813a08139081300812f0812d0812c0812b0812908127,
  0x081770817608174081730817208171081700816f0816e0816b08169081670816608165081640816208161081600815e0815c0815b081550815408153,
  0x0819d0819c0819b0819a081990819808197081950818f0818d0818c0818b0818a081890818808187081860818308182081800817f0817a0817908178,
  0x081bd081bc081bb081ba081b9081b7081b5081b4081b3081b2081b1081b0081ae081ac081ab081a9081a8081a7081a6081a3081a2081a00819f0819e,
  0x081dd081db081da081d9081d8081d7081d5081d2081d1081d0081cf081cd081cc081ca081c9081c7081c6081c5081c4081c3081c2081c0081bf081be,
  0x081fb081fa081f9081f8081f7081f4081f3081f2081ef081ee081ed081ec081ea081e9081e8081e7081e6081e5081e3081e2081e1081e0081df081de,
  0x0821d0821c0821b0821608215082140821208211082100820d0820c0820b0820a0820908208082070820508204082020820108200081ff081fe081fc,
  0x0823f0823d0823c0823a08239082380823708236082350823408233082320822f0822c0822b0822a0822808226082250822208221082200821f0821e,
  0x082610825f0825e0825c0825b0825a0825908258082570825608255082530825208251082500824f0824e0824b082490824708245082440824208240,
  0x082850828408283082800827f0827e0827d0827c0827808277082750827408272082710826f0826e0826d0826c0826b0826908268082660826408263,
  0x082a5082a4082a3082a2082a1082a00829f0829e0829d0829b0829a082990829808294082930829208291082900828f0828e0828d0828b0828a08287,
  0x082c2082c0082be082bd082bc082bb082ba082b9082b8082b7082b6082b5082b4082b3082b1082b0082af082ae082ad082ac082ab082a9082a8082a7,
  0x082ec082eb082ea082e8082e7082e6082e5082e4082e3082e1082e0082df082de082dc082db082d9082d7082d6082d5082d4082d3082d2082d1082c3,
  0x083080830708306083050830408303083020830108300082fe082fc082fb082fa082f9082f6082f5082f4082f3082f2082f1082f0082ef082ee082ed,
  0x08332083310832f0832d0832c0832b0832a08329083280832708326083250832408322083200831e0831c0831b0831908317083160830d0830c08309,
  0x0834d0834c0834b0834a0834908348083470834508344083430834208341083400833f0833c0833b0833a08339083380833708336083350833408333,
  0x0838608383083810837f0837e0837d0837c0837b0837a083780837708376083750837408373083630835608354083530835208351083500834f0834e,
  0x083a2083a00839e0839d0839b0839a0839908398083970839608395083940839308392083900838f0838e0838d0838c0838b0838a083890838808387,
  0x083c8083c7083c6083c5083c4083c3083c2083c1083c0083bf083bd083b9083b0083af083ae083ab083aa083a9083a8083a7083a6083a5083a4083a3,
  0x083e4083e3083e2083e1083e0083df083de083dd083dc083db083d9083d8083d7083d6083d5083d4083d1083cf083ce083cd083cc083cb083ca083c9,
  0x083ff083fe083fd083fc083fb083fa083f9083f8083f6083f5083f4083f3083f2083f1083f0083ef083ee083ec083eb083ea083e9083e8083e7083e5,
  0x0842d0842c0842b0842908424084230841b08416084130841208411084100840f0840e0840d0840c0840b0840a084090840708406084040840308401,
  0x084470844608445084440844308442084400843f0843d0843c0843b0843a084390843808437084360843508434084330843208431084300842f0842e,
  0x084670846608465084630846208461084600845f0845e0845d0845b0845a084590845708456084540845208451084500844e0844d0844c0844b08449,
  0x084900848f0848e0848d08486084820847e0847d0847a08479084780847708476084750847408473084700846f0846e0846d0846c0846b0846908468,
  0x084b0084af084ae084ac084ab084aa084a9084a8084a7084a4084a2084a1084a00849f0849e0849d0849c0849b0849a0849908498084970849408491,
  0x084cf084ce084cd084cc084cb084ca084c9084c7084c6084c5084c4084c2084c1084c0084bf084bc084bb084ba084b9084b8084b6084b4084b2084b1,
  0x084f9084f7084f6084f4084f3084f2084f1084f0084ef084ee084ec084eb084ea084e9084e8084e7084db084d7084d6084d4084d3084d2084d1084d0,
  0x08515085140851308512085110850f0850e0850d0850c0850b0850a08509085080850708506085050850208500084ff084fe084fd084fc084fb084fa,
  0x0852f0852e0852d0852c0852b0852a0852908528085270852608525085240852308521085200851f0851e0851d0851c0851a08519085180851708516,
  0x085550855408553085510854e0854d0854c0854a085490854808547085460854508544085430854208541085400853e0853d0853b085330853108530,
  0x08575085710856e0856d0856c0856b0856a085690856808567085660856508564085630856208561085600855e0855d0855b08559085580855708556,
  0x0858f0858e0858d0858c0858b0858a085890858808587085860858508584085830858208581085800857e0857c0857b0857a08579085780857708576,
  0x085af085aa085a9085a8085a7085a6085a4085a3085a2085a1085a00859f0859e0859d0859c0859b0859a08599085980859608595085940859108590,
  0x085cd085cb085c9085c8085c7085c6085c5085c4085c3085c2085c0085bf085be085bd085ba085b9085b8085b7085b6085b5085b4085b3085b1085b0,
  0x085eb085ea085e9085e8085e6085e5085e4085e3085e2085e1085df085de085dd085dc085da085d9085d8085d7085d5085d2085d1085d0085cf085ce,
  0x0860b0860a08609086070860608605086040860108600085ff085fe085fd085fb085fa085f9085f8085f7085f6085f2085f1085f0085ef085ed085ec,
  0x0862e0862d0862c0862a0862908627086260862508624086230862208621086200861f0861e0861c0861b0861a086190861808617086110860d0860c,
  0x08652086500864e0864d0864c0864b08648086470864608643086400863f0863e0863c0863b0863a0863908638086360863508634086330863208631,
  0x08671086700866f0866e0866d0866b0866a08669086680866708665086640866308662086610865f0865e0865c0865b0865908656086550865408653,
  0x0869908698086970869608695086940869308691086900868e0868d0868c0868b0868a0868708686086850867c0867b0867a08679086770867408673,
  0x086ba086b9086b8086b7086b6086b5086b4086b3086b1086b0086af086aa086a9086a8086a7086a5086a4086a3086a2086a10869e0869d0869c0869a,
  0x086d8086d7086d6086d4086d3086d1086d0086cc086cb086c9086c8086c7086c6086c5086c4086c3086c2086c1086c0086bf086be086bd086bc086bb,
  0x086fb086fa086f9086f8086f7086f6086f5086ed086ec086eb086ea086e9086e8086e6086e4086e3086e2086df086de086dd086dc086db086da086d9,
  0x0871c0871b0871a08719087180871308712087110870e0870d0870c0870b0870a08709087080870708706087050870408703087020870108700086fe,
  0x0873a08738087370873508734087330873208731087300872e0872d0872c0872a087290872808727087260872508724087230872208721087200871e,
  0x0875a087590875808757087560875508754087530875208751087500874f0874e0874d0874c08746087430874208741087400873f0873e0873c0873b,
  0x0877508774087730876f0876e0876d0876c0876b0876a087690876808767087660876508764087630876208761087600875f0875e0875d0875c0875b,
  0x087970879608794087930879208791087900878f0878d08789087880878708785087840878308782087810877d0877b0877a08779087780877708776,
  0x087b8087b7087b6087b5087b4087b3087b2087b0087af087ae087ad087ac087ab087aa087a4087a3087a20879f0879e0879d0879c0879b0879a08798,
  0x087d8087d7087d4087d3087d2087d1087cc087cb087ca087c9087c8087c6087c5087c4087c3087c2087c0087bf087be087bd087bc087bb087ba087b9,
  0x087f6087f4087f3087f2087ef087ed087ec087eb087ea087e8087e7087e6087e5087e4087e3087e2087e1087e0087df087de087dd087dc087db087d9,
  0x08815088140881308811088100880d0880c0880b0880a0880908808088060880508803088020880108800087ff087fe087fc087fb087fa087f9087f7,
  0x0883208831088300882f0882e0882c0882b0882a0882908828088260882508824088230882208821088200881f0881d0881c0881b088190881708816,
  0x0885508853088520884e0884d0884c0884b0884a08848088440884308841088400883f0883e0883d0883c0883b088390883808837088360883508833,
  0x08879088770887608875088740887208871088700886f0886d0886b0886a0886908868088670886308862088610885d0885b0885a088590885708856,
  0x0889a08899088980889708896088950889308892088910888e0888d0888c0888b088890888808884088830888208881088800887f0887e0887d0887c,
  0x088c2088c1088c0088be088bd088bc088ba088b9088b8088b7088b6088b2088b1088ac088ab088aa088a8088a7088a4088a2088a10889f0889e0889b,
  0x088e8088e7088e1088df088de088dd088dc088db088da088d9088d8088d7088d6088d5088d4088d2088d0088cf088ce088cd088cc088cb088ca088c9,
  0x089070890608905089020890108900088fe088fd088fc088fb088fa088f9088f8088f7088f6088f4088f3088f2088f1088f0088ef088ee088ec088eb,
  0x0892708926089250892308922089210891f0891e0891a089190891808917089160891508914089130891208911089100890e0890c0890b0890a08909,
  0x08949089460894408942089410893e0893d0893c0893b08938089370893608935089330893208931089300892f0892e0892d0892c0892b0892a08929,
  0x089690896608964089630896208961089600895f0895e0895d0895c0895b0895a08959089580895708956089530895208951089500894f0894c0894b,
  0x0898b0898808986089850898308982089810897f0897e0897c0897b0897a0897908976089740897308972089710896f0896e0896d0896c0896b0896a,
  0x089b7089b6089b2089af089ae089ad089ac089aa089a6089a4089a3089a2089a10899f0899e0899d0899c0899b08998089970899608995089930898f,
  0x089e6089e5089e4089e3089e2089e1089e0089df089dd089dc089db089da089d9089d6089d5089d4089d3089d2089c0089bf089be089bd089ba089b9,
  0x08a0808a0708a0408a0308a0208a00089ff089fe089fc089fb089fa089f8089f7089f6089f4089f3089f2089f1089f0089ed089ec089eb089e9089e8,
  0x08a3008a2d08a2c08a2a08a2708a2508a2308a2208a1f08a1e08a1d08a1b08a1808a1708a1608a1508a1308a1208a1108a1008a0f08a0e08a0c08a0a,
  0x08a5408a5208a5108a5008a4f08a4e08a4d08a4c08a4a08a4808a4608a4508a4408a4108a4008a3f08a3e08a3c08a3b08a3a08a3908a3608a3408a31,
  0x08a7508a7408a7308a7208a7108a7008a6e08a6d08a6c08a6b08a6908a6808a6608a6308a6208a6108a6008a5e08a5b08a5908a5808a5708a5608a55,
  0x08a9808a9608a9508a9308a9208a9108a8f08a8d08a8c08a8b08a8708a8608a8508a8408a8308a8208a8108a7f08a7c08a7b08a7a08a7908a7708a76,
  0x08abf08abe08abd08abc08abb08aba08ab908ab808ab608ab208ab008aab08aaa08aa808aa708aa608aa508aa408aa308aa108aa008a9e08a9a08a99,
  0x08add08adc08adb08ad908ad808ad708ad608ad508ad408ad308ad208ad108acf08acd08acb08ac908ac808ac708ac608ac508ac408ac308ac208ac0,
  0x08afb08afa08af808af708af608af508af408af308af208af108af008aef08aee08aed08aeb08ae808ae708ae608ae408ae208ae108ae008adf08ade,
  0x08b1708b1608b1508b1408b1308b1208b1108b1008b0f08b0e08b0d08b0b08b0a08b0808b0708b0608b0508b0408b0208b0108b0008aff08afe08afc,
  0x08b3508b3308b3108b3008b2f08b2e08b2c08b2b08b2a08b2808b2708b2608b2508b2408b2308b2208b2008b1e08b1d08b1c08b1b08b1a08b1908b18,
  0x08b5308b5208b5108b5008b4f08b4e08b4b08b4a08b4908b4808b4708b4608b4508b4208b4108b4008b3e08b3d08b3c08b3b08b3a08b3908b3708b36,
  0x08b7708b7408b7008b6f08b6d08b6c08b6b08b6a08b6808b6708b6608b6508b6308b6008b5f08b5d08b5c08b5a08b5908b5808b5708b5608b5508b54,
  0x08b9908b9808b9608b9508b9408b9308b9208b8e08b8c08b8b08b8a08b8808b8608b8508b8408b8208b8008b7f08b7e08b7d08b7b08b7a08b7908b78,
  0x08c4e08c4d08c4c08c4b08c4a08c4908c4808c4708c4608c4508c4308c4208c4108c3f08c3e08c3d08c3c08c3b08c3908c3708b9f08b9e08b9c08b9a,
  0x08c7108c7008c6f08c6d08c6c08c6b08c6a08c6908c6808c6608c6508c6408c6208c6108c5f08c5d08c5c08c5a08c5708c5608c5508c5408c5008c4f,
  0x08c9208c9108c9008c8f08c8d08c8c08c8a08c8908c8608c8508c8408c8208c8108c8008c7d08c7b08c7a08c7908c7808c7708c7608c7508c7308c72,
  0x08cb008caf08cac08cab08caa08ca908ca808ca708ca508ca408ca308ca208ca108ca008c9e08c9d08c9c08c9a08c9908c9808c9708c9508c9408c93,
  0x08ccc08cca08cc808cc708cc508cc408cc308cc208cc108cc008cbf08cbe08cbd08cbc08cbb08cba08cb908cb808cb708cb608cb508cb408cb308cb2,
  0x08ced08cec08cea08ce808ce708ce608ce508ce408ce308ce208ce108ce008cdf08cde08cdd08cdc08cda08cd908cd708cd508cd308cd208cd108ccf,
  0x08d0f08d0d08d0a08d0908d0808d0708d0608d0508d0408d0208d0008cfe08cfd08cfc08cfb08cfa08cf908cf808cf508cf408cf308cf108cf008cee,
  0x08d7708d7608d7408d7308d7208d7008d6f08d6e08d6d08d6c08d6b08d6908d6808d6708d6608d6408d1b08d1908d1708d1608d1508d1408d1308d10,
  0x08d9c08d9b08d9908d9608d9508d9408d9308d9208d9108d9008d8f08d8e08d8d08d8c08d8a08d8908d8508d8408d8108d8008d7d08d7b08d7908d78,
  0x08dbf08dbe08dbc08dba08db908db708db608db508db408db308db208daf08dae08dad08dac08dab08daa08da808da708da508da308da108da008d9f,
  0x08ddf08ddd08ddc08ddb08dda08dd908dd808dd708dd608dd508dd308dd108dd008dcf08dce08dcd08dcc08dcb08dc808dc708dc608dc508dc208dc1,
  0x08dff08dfe08dfd08dfc08dfa08df408df308df208df108df008def08dee08dec08deb08dea08de908de808de708de608de408de308de208de108de0,
  0x08e1c08e1b08e1a08e1908e1808e1708e1608e1508e1408e1308e1208e1108e1008e0f08e0d08e0a08e0908e0708e0608e0508e0408e0308e0208e00,
  0x08e3d08e3c08e3908e3808e3608e3508e3408e3308e3108e3008e2e08e2b08e2908e2708e2608e2508e2408e2308e2208e2108e2008e1f08e1e08e1d,
  0x08e5b08e5a08e5908e5708e5608e5508e5408e5308e5008e4e08e4d08e4c08e4b08e4a08e4908e4808e4708e4508e4408e4208e4108e4008e3f08e3e,
  0x08e7b08e7a08e7808e7608e7408e7308e7208e6f08e6d08e6c08e6a08e6908e6708e6608e6508e6408e6308e6208e6108e6008e5f08e5e08e5d08e5c,
  0x08e9a08e9808e9708e9608e9508e9408e9308e9208e9108e9008e8e08e8d08e8c08e8b08e8a08e8908e8808e8708e8608e8508e8408e8208e8108e7c,
  0x08ecd08ecc08ecb08eca08ec908ec208ec008ebd08eba08eb208eac08eab08eaa08ea908ea808ea608ea508ea408ea308ea108ea008e9f08e9e08e9d,
  0x08ef108eef08eee08eec08eeb08ee908ee808ee708ee608ee508ee108ee008edf08ede08edd08edc08edb08ed808ed708ed408ed308ed208ed108ecf,
  0x08f0e08f0d08f0b08f0a08f0908f0808f0708f0608f0508f0308f0208f0108f0008eff08efe08efc08efb08efa08ef908ef808ef708ef608ef508ef4,
  0x08f2e08f2c08f2a08f2908f2608f2508f2408f2308f2008f1f08f1e08f1d08f1c08f1b08f1a08f1808f1708f1608f1508f1408f1308f1208f1108f10,
  0x08f4e08f4d08f4b08f4908f4808f4708f4608f4508f4408f4308f4208f4008f3f08f3e08f3b08f3908f3808f3708f3608f3508f3408f3308f3208f2f,
  0x08f9f08f9c08f9b08f6408f6308f6208f6108f6008f5f08f5e08f5d08f5b08f5a08f5908f5808f5708f5608f5508f5408f5308f5208f5108f5008f4f,
  0x08fd308fd208fd108fce08fcd08fcb08fc908fc608fc508fc408fc208fbf08fb808fb508fb408fb208fb108fb008faf08fae08fad08fa808fa608fa3,
  0x08ffb08ffa08ff808ff708ff608ff508ff408ff008fee08fed08feb08fea08fe808fe608fe508fe408fe308fe208fe108fe008fd708fd608fd508fd4,
  0x0901b0901a090190901709016090150901409011090100900f0900d0900c0900b0900609005090040900309002090010900008fff08ffe08ffd08ffc,
  0x09042090410903f0903e0903d0903c0903809036090350903409032090310902f0902e0902d09024090230902209021090200901f0901e0901d0901c,
  0x090670906309062090600905e0905d0905c0905b09059090580905509054090530905209051090500904f0904e0904d0904b0904a090490904709044,
  0x0908209081090800907f0907e0907d0907c0907b0907a0907909078090770907609075090740907309072090700906f0906e0906d0906b0906909068,
  0x090a3090a2090a1090a00909f0909e0909b090990909809097090950909409091090900908f0908d0908b0908a090880908709086090850908409083,
  0x090ce090cb090ca090c8090c7090c5090c3090c1090bf090be090bd090b8090b6090b5090b4090b3090b2090b1090b0090af090aa090a7090a6090a5,
  0x090ef090ed090ec090eb090ea090e9090e8090e5090e4090e3090e2090e1090e0090df090dd090dc090db090da090d9090d8090d7090d6090d5090d4,
  0x0910b09109091080910709106091050910409103091020910109100090ff090fe090fd090fc090fb090fa090f9090f5090f4090f3090f2090f1090f0,
  0x091270912609124091230912209121091200911f0911e0911d0911c0911b0911a09119091180911709116091140911209111091100910f0910e0910d,
  0x0914309141091400913f0913e0913b0913a0913909138091360913509134091330913209131091300912f0912e0912d0912c0912b0912a0912909128,
  0x0916209161091600915f0915a091580915709156091550915309152091500914f0914e0914d0914c0914b0914a091490914809147091460914509144,
  0x091860918509184091830918209181091800917a091790917809177091750917409173091720916f0916e0916c0916a0916909168091650916409163,
  0x091a8091a7091a5091a3091a2091a1091a00919f0919e0919d0919c0919b0919a09199091930919209191091900918f0918d0918b0918a0918909187,
  0x091c6091c5091c3091c2091c1091c0091be091bd091bc091ba091b9091b7091b5091b4091b3091b2091b1091b0091af091ae091ad091ac091ab091aa,
  0x091e7091e6091e4091e3091e2091dd091dc091da091d9091d8091d7091d6091d5091d4091d3091d1091d0091cf091ce091cd091cc091cb091c9091c7,
  0x0920709206092050920409203092020920109200091ff091fd091f9091f8091f7091f5091f4091f3091f1091ee091ed091ec091eb091ea091e9091e8,
  0x092300922e0922d09227092260922509224092230921e0921c0921a09219092170921609215092140921209211092100920f0920d0920c0920a09209,
  0x0924f0924e0924d0924c0924b0924a09249092480924609245092400923f0923e0923d0923c0923a0923909238092370923609234092330923209231,
  0x092780927609272092700926f0926d0926c092670926609265092640926309261092600925e0925b0925a09257092560925409253092520925109250,
  0x09296092950929409293092910928e0928d0928c0928b0928a092880928709286092850928309282092800927f0927e0927d0927c0927b0927a09279,
  0x092b5092b4092b3092b2092ac092ab092aa092a9092a8092a7092a6092a5092a4092a3092a2092a1092a00929d0929c0929b0929a092990929809297,
  0x092d2092d1092d0092cf092ce092cd092cc092cb092ca092c9092c8092c7092c6092c5092c4092c3092c2092c1092c0092bc092bb092b9092b7092b6,
  0x092f9092f8092f7092f1092f0092ef092ee092ea092e9092e8092e7092e6092e4092e1092e0092df092de092dd092db092d9092d8092d7092d5092d3,
  0x093180931609315093140931309312093100930f0930e0930d0930c0930b09309093080930609304093020930109300092ff092fe092fc092fb092fa,
  0x0933509334093330932f0932e0932d0932b0932a093290932809327093260932509324093230932209321093200931f0931e0931d0931b0931a09319,
  0x09358093570935609355093540935209351093500934f0934e0934d0934c0934b0934a0934909347093460934409341093400933c093390933809336,
  0x0937c0937b0937a0937909377093760937509371093700936d0936c0936a093670936509364093630936209361093600935e0935c0935b0935a09359,
  0x0939e0939d0939b0939a09399093980939709396093950939409392093910938f0938e0938d0938c0938a0938909388093850938309382093800937e,
  0x093c3093c2093c0093b7093b5093b4093b3093b2093b1093b0093af093ae093ac093aa093a9093a8093a7093a6093a5093a4093a3093a2093a10939f,
  0x093e1093df093de093dd093dc093da093d9093d8093d7093d6093d5093d4093d3093d2093d1093d0093cf093ce093cd093cc093ca093c8093c7093c4,
  0x094060940309400093ff093fe093fd093fc093fb093fa093f9093f8093f7093f6093f5093f1093f0093ee093ec093e8093e7093e6093e4093e3093e2,
  0x0942c0942b0942a0942909428094200941b0941909418094160941509414094130941209411094100940f0940e0940d0940c0940b0940a0940909407,
  0x0944909448094470944609445094440944309442094400943f0943d0943c0943b0943a0943909438094370943609435094330943209431094300942e,
  0x09471094700946f0946e0946d0946b0946a0946909468094640946309462094600945e0945d09457094550945209451094500944f0944c0944b0944a,
  0x0958309582095800957d0957c0957b0957a09577094830948209481094800947f0947e0947d0947c0947b09478094770947609475094740947309472,
  0x095a9095a8095a5095a4095a3095a10959f0959e0959c0959b0959809594095930959209591095900958f0958e0958d0958c0958b095890958809586,
  0x095ca095c9095c8095c7095c6095c5095c3095c0095bf095be095bd095bc095bb095ba095b9095b7095b6095b5095b1095b0095ae095ad095ac095ab,
  0x096200961e0961c095e5095e4095e3095e2095e1095e0095df095de095dc095db095da095d6095d5095d4095d3095d2095d1095d0095cd095cc095cb,
  0x0964a096440964309642096400963f0963d0963c0963b0963a096390963209631096300962f0962e0962d0962c0962a0962809624096230962209621,
  0x0966f0966d0966c0966b0966a096640966309662096610965f0965e0965d0965c0965b09658096540965309651096500964f0964e0964d0964c0964b,
  0x0968e0968d0968b0968a09689096880968709686096850968409683096800967e0967d0967c096780967709676096750967409673096720967109670,
  0x096b3096b1096b0096ae096ac096aa096a9096a8096a7096a5096a4096a2096a10969e0969c0969b0969909698096970969509694096930969209691,
  0x096d3096d2096ce096cd096cc096cb096ca096c9096c8096c7096c6096c5096c4096c3096c2096c1096c0096bf096bc096bb096b9096b8096b6096b4,
  0x096f5096f2096f1096f0096ef096ea096e9096e8096e5096e3096e2096e1096df096de096dd096dc096db096da096d9096d8096d7096d6096d5096d4,
  0x097130971209711097100970f0970e0970d0970b0970909708097070970609705097040970209700096ff096fd096fb096fa096f9096f8096f7096f6,
  0x0973509732097300972f0972e0972c0972b0972a0972909728097270972609725097240972309722097200971f0971e0971d0971c097190971809716,
  0x0976209761097600975e0975c0975b0975a0975809756097520974b097490974809747097460974409743097420973f0973e0973d0973a0973909738,
  0x09784097830978209781097800977f0977e0977d0977c0977b0977a097780977709776097740977309772097700976e0976c0976a097690976809766,
  0x097a8097a6097a5097a4097a3097a2097a1097a00979e0979d0979c0979a097990979809797097940978f0978e0978d0978b0978a097880978709785,
  0x097cf097ce097cd097cc097cb097c9097c7097c6097c5097c4097c3097c1097bf097bd097bb097b9097b7097b6097b3097ae097ad097ac097ab097aa,
  0x097fb097fa097f9097f8097f6097f3097f1097f0097ed097e5097e3097e1097df097de097dd097dc097d9097d8097d7097d6097d5097d4097d3097d0,
  0x098170981609814098130981209811098100980f0980e0980d0980c0980a098080980709806098050980409803098020980109800097ff097fe097fd,
  0x09843098410983b0983909838098370983509832098300982f0982d0982b098290982809827098260982409821098200981e0981d0981c0981b09818,
  0x09862098600985f0985e0985d0985c0985b098590985809857098530985209851098500984f0984e0984d0984c0984a0984909848098460984509844,
  0x098b6098b3098b2098b1098af098ae098ad098ac098a9098a809874098730987209871098700986f0986c0986b0986a0986909867098650986409863,
  0x098eb098ea098e9098e7098e5098e3098e2098df098db098cc098cb098c9098c6098c4098c2098c1098c0098bf098be098bd098bc098bb098ba098b8,
  0x09914099130991209911099100990c0990a09909099080990709905099030990209900098fe098fd098fc098fa098f9098f6098f4098f2098ef098ed,
  0x099330993209931099300992f0992e0992d0992c0992b0992a0992909928099270992509924099210991f0991e0991b0991a09918099170991609915,
  0x0995809957099560995509954099530995209951099500994e0994c0994b0994909948099470994509943099410993f0993e0993d0993c0993a09935,
  0x099ae099ad099ac099ab099a8099a7099a6099a5099a4099a3099a10999e0999d0999c09999099980999709996099610995f0995e0995c0995b09959,
  0x099d2099d1099d0099cf099ce099cd099cc099cb099c9099c7099c3099c2099c1099bd099bb099ba099b9099b5099b4099b3099b2099b1099b0099af,
  0x099f4099f1099f0099ee099ed099ec099ea099e9099e7099e5099e4099e3099e2099df099dd099dc099db099d9099d8099d7099d6099d5099d4099d3,
  0x09a1109a0f09a0e09a0d09a0b09a0a09a0909a0709a0609a0509a0409a0309a0209a01099ff099fe099fd099fc099fb099fa099f9099f8099f7099f6,
  0x09a3209a3109a3009a2e09a2d09a2c09a2b09a2a09a2909a2709a2509a2409a2309a2209a2009a1e09a1d09a1c09a1b09a1a09a1909a1609a1509a14,
  0x09a4f09a4e09a4d09a4c09a4a09a4909a4809a4609a4509a4409a4309a4209a4109a4009a3f09a3e09a3d09a3a09a3909a3809a3709a3609a3509a34,
  0x09aab09aa809a6b09a6a09a6909a6809a6709a6609a6509a6409a6209a6009a5f09a5e09a5b09a5a09a5909a5709a5609a5509a5409a5309a5209a50,
  0x09ad209ad109ad009acf09acd09aca09ac709ac609ac209ac109ac009abf09abe09abc09abb09ab909ab809ab709ab409ab309ab109ab009aaf09aad,
  0x09afb09afa09af909af709af609af309af209af109aef09aee09aed09aec09aeb09ae709ae609ae309ae109adf09adc09ad809ad609ad509ad409ad3,
  0x09b1e09b1a09b1909b1809b1709b1609b1509b1209b1109b1009b0e09b0d09b0c09b0b09b0a09b0809b0609b0509b0409b0309b0109afe09afd09afc,
  0x09b4209b4109b3f09b3e09b3c09b3b09b3a09b3709b3509b3309b3209b3109b2f09b2e09b2b09b2909b2809b2709b2509b2409b2309b2209b2009b1f,
  0x09b6409b6109b6009b5f09b5b09b5a09b5909b5809b5609b5509b5409b5209b5109b4f09b4e09b4d09b4c09b4b09b4a09b4809b4609b4509b4409b43,
  0x09b9009b8809b8709b8609b8509b8309b8209b8009b7e09b7d09b7c09b7b09b7a09b7709b7609b7509b7409b7109b7009b6f09b6c09b6809b6709b66,
  0x09bbd09bb909bb809bb609bb509baf09bae09bad09bab09baa09ba809ba609ba509ba409ba209ba109ba009b9e09b9b09b9a09b9509b9309b9209b91,
  0x09be409be209be109be009bde09bdc09bdb09bda09bd909bd709bd609bd509bd409bd309bca09bc909bc809bc709bc609bc409bc309bc109bc009bbf,
  0x09c1c09c1709c1409c1309c1209c0e09c0d09c0b09c0909c0809c0709c0609c0509bfd09bf809bf709bf009bec09beb09bea09be809be709be609be5,
  0x09c4109c4009c3f09c3e09c3d09c3c09c3b09c3909c3709c3609c3409c3309c3209c3109c2d09c2c09c2b09c2909c2809c2509c2409c2309c2109c1d,
  0x09c6709c6609c6309c6209c6009c5f09c5e09c5909c5809c5709c5609c5509c5409c5209c5009c4e09c4d09c4c09c4b09c4a09c4909c4809c4609c44,
  0x09cf709cf609cf509cf409cf309cf209cf109ced09cea09ce909ce709ce609ce509c7a09c7909c7809c7709c7509c7409c7309c7109c6e09c6d09c68,
  0x09d1e09d1d09d1b09d1909d1809d1709d1509d1409d1209d1009d0909d0809d0709d0609d0509d0409d0309d0009cff09cfd09cfc09cfb09cfa09cf9,
  0x09d4109d4009d3f09d3e09d3d09d3b09d3809d3709d3609d3409d3309d3109d3009d2f09d2e09d2d09d2909d2809d2609d2509d2309d2209d2009d1f,
  0x09d6809d6709d6109d6009d5f09d5d09d5c09d5b09d5a09d5909d5809d5709d5609d5409d5309d5209d5109d4f09d4c09d4b09d4a09d4509d4309d42,
  0x09d8709d8609d8509d8409d8209d8109d8009d7f09d7d09d7b09d7909d7809d7709d7509d7409d7309d7209d7109d7009d6f09d6c09d6b09d6a09d69,
  0x09da609da409da309da209da109da009d9f09d9e09d9d09d9c09d9b09d9a09d9909d9809d9709d9609d9409d9209d9009d8c09d8b09d8a09d8909d88,
  0x09dc309dc209dc109dbf09dbe09dbc09dbb09dba09db909db809db709db609db509db409db309db209db109daf09dad09dac09daa09da909da809da7,
  0x09ddf09dde09ddd09ddc09ddb09dda09dd909dd809dd709dd609dd509dd309dd209dd109dd009dcf09dce09dcd09dcc09dcb09dca09dc809dc709dc5,
  0x09dfb09dfa09df909df809df709df609df509df409df309df209df009def09dee09ded09dec09deb09de909de809de609de509de409de309de209de1,
  0x09e1a09e1909e1709e1509e1409e1309e1209e1109e1009e0f09e0d09e0b09e0909e0709e0609e0509e0409e0309e0209e0109e0009dff09dfe09dfd,
  0x09e9309e9209e9109e8e09e8d09e8c09e8b09e8a09e8909e8809e8709e8609e8309e8209e8009e7f09e7d09e7c09e7a09e7909e7509e1e09e1d09e1b,
  0x09ebe09ebc09ebb09eb709eb609eb509eb409eb009eae09ead09ea909ea709ea509ea409ea109ea009e9f09e9d09e9c09e9b09e9a09e9909e9709e94,
  0x09ee509ee409ee009edf09ede09edd09edc09edb09eda09ed809ed609ed509ed409ed309ed109ed009ecf09ece09ecd09ecc09ec809ec309ec209ec0,
  0x09f0709f0609f0109f0009eff09efd09efc09efb09efa09ef909ef709ef609ef509ef409ef309ef209ef009eef09eee09eed09eeb09ee809ee709ee6,
  0x09f2b09f2a09f2909f2809f2509f2409f2309f2209f2009f1e09f1c09f1b09f1a09f1909f1809f1609f1509f1309f1209f1009f0f09f0e09f0a09f09,
  0x09f4909f4809f4709f4609f4309f4209f4109f4009f3e09f3d09f3b09f3809f3709f3609f3509f3409f3309f3209f3109f3009f2f09f2e09f2d09f2c,
  0x09f6609f6509f6409f6309f6109f6009f5f09f5e09f5d09f5c09f5b09f5909f5809f5709f5609f5509f5409f5209f4f09f4e09f4d09f4c09f4b09f4a,
  0x09f9509f9409f9209f9109f9009f8d09f7e09f7b09f7a09f7909f7809f7709f7609f7509f7409f7209f7109f7009f6f09f6e09f6c09f6b09f6a09f67,
  0x0fe3f0fe3e0fe3d0fe3c0fe3b0fe3a0fe390fe380fe370fe360fe350fe340fe330fe310fe300fa0d0fa0c09fb109fb009fa409fa209fa009f9c09f98,
  0x0fe5d0fe5c0fe5b0fe5a0fe590fe570fe560fe550fe540fe520fe510fe500fe4f0fe4e0fe4d0fe4c0fe4b0fe4a0fe490fe440fe430fe420fe410fe40,
  0x0ff0b0ff0a0ff090ff080ff070ff060ff050ff040ff030ff020ff010fe6b0fe6a0fe690fe680fe660fe650fe640fe630fe620fe610fe600fe5f0fe5e,
  0x0ff230ff220ff210ff200ff1f0ff1e0ff1d0ff1c0ff1b0ff1a0ff190ff180ff170ff160ff150ff140ff130ff120ff110ff100ff0f0ff0e0ff0d0ff0c,
  0x0ff3b0ff3a0ff390ff380ff370ff360ff350ff340ff330ff320ff310ff300ff2f0ff2e0ff2d0ff2c0ff2b0ff2a0ff290ff280ff270ff260ff250ff24,
  0x0ff550ff540ff530ff520ff510ff500ff4f0ff4e0ff4d0ff4c0ff4b0ff4a0ff490ff480ff470ff460ff450ff440ff430ff420ff410ff3f0ff3d0ff3c,
  0x202e5202a02029e20204201c120118200cc2008a0ffed0ffe50ffe40ffe30ffe20ffe10ffe00ff5e0ff5d0ff5c0ff5b0ff5a0ff590ff580ff570ff56,
  0x20d4d20d3220cd320c7720c3a20bff20be220b8f209542092320656205df205c3205b3205a52058e20547204872041f203c9203b5203802037e20347,
  0x2170d216e8216e7216d5216c1216b8216922163e21613215962149721454214162138e213762133a213052124f2123c210b420edd20e7520d7420d4e,
  0x21e3721e1c21df921ca521b4421a4b21a34219db21988219832195821911218d72189e218772182921828217fc217fb217dc217b2217712177021726,
  0x228f7228c1228ad2285f227cd227b422698226682261c225542253022513224ed224912248b22471223d0221732212a220fc2204921f6a21ea421e3d,
  0x2363c23600235cd2346f23400233e6233b4232ac2328a2323323231231f9231f8231f7231c8231a5231a42307e2304b2304422e3622e0d22da322980,
  0x2403a2403923ff023fec23feb23fc523fb723fb423f8223f8023efc23e3023e2f23dbd23dbc23cc923cc823c9923b5a23adb237c22372d2370323659,
  0x244bc2445a244352439c2436524363242c12427824277241e2241cd241a5241a42415f24157241562415524144241402413f240912408c240852403d,
  0x24a2624a2424a2324a2224a2124a12249fb249df249b7249a9249a42498f2498d249822497f249742494224940249332490c2490124900248f124823,
  0x263f5261dd26083259cc25857257722571d25605255e0253132525025220251e62517d2509d24f8224d1324bf524ab124aa624a8c24a7924a2824a27,
  0x26f9f26f7426ed226e7226e6e26e4526deb26da626da126da026d2a26d2926d2526c8126c7e26bb326b5326b5126b2826b1326a2e269112690e26888,
  0x28ade28a9b28a4a28a3628a29289e4289bc289aa28968289642882b28804286ab285f42848227b3927a8427a5327a0e2760c2760727126270f826fa1,
  0x2f8a62f8942a1502995d2919c291702910d290ed28ed928eb228eac28c0328be828b9d28b8f28b6628b2b28b2128adf]

/-- `index_pointer_big5_0` (lib/whatwg/encoding/indexes_pointer.cpp:5), 14659 entries. -/
def ptr0Big5 : Table := ⟨20, 14659, ptr0Big5Data⟩

/-- Rows of `index_pointer_big5_1`. -/
def ptr1Big5Data : Nat := pack 480 [
  0x14e214e114e014df14de1533140315371535153415362ac82c262c1e2c222c272c202c212c1f2c232c252c241410140f13b01411145514002ac713ef,
  0x150014ff14fe14fd14fc14fb14fa14f914f814f714f614f514f414f314f214f114f014ef14ee14ed14ec14eb14ea14e914e814e714e614e514e414e3,
  0x2b8f2b8e2b8d2b8c2b8b2b8a2b892b882b872b862b842b832b822b812b802b7f2b85150d150c150b150a150915081507150615051504150315021501,
  0x2bae2bad2bac2bab2baa2ba92ba82ba72ba52ba42ba32ba22ba12ba02b9f2b9e2b9d2b9c2b9b2b9a2b992b982b972b962b952b942b932b922b912b90,
  0x13e913ea13a513ab13ac13e613e513e413e313b813b62ba62bc02bbf2bbe2bbd2bbc2bbb2bba2bb92bb82bb72bb62bb52bb42bb32bb22bb12bb02baf,
  0x1435143214342aad2aac2aab2aaa2aa92aa82aa72aa62aa52aa4149d149c149b149a1499149814971496149514942bfc2bfb144813ff1447155913ee,
  0x142714241431143014171416141b1418141a142c142d142b142a14231422143a143b1425142614191412143e2bc12bc32bc214381439143714361433,
  0x155515541553155215511550154f154e154d154c154b154a1549154815471546154515441543154215411540153f153e153d153c153b153a15391538,
  0x1472147a147914781477147514742aa32aa22aa12aa02a9f2a9e2a9d2a9c2a9b2a9a2a992a982a972a962a952a942a932a922a912a90155815571556,
  0x4a144a264a1d4a184a2a4a2114824a164a284a1f14804a1b4a2d4a244a194a2b4a224a154a274a1e4a134a254a1c4a2e4a2f147f146e146f14701471,
  0x146714681469146a146b146c146d1466146514641463146214611460145f13ba148914881487147d147e147c147b4a174a294a2014814a1a4a2c4a23,
  0x2c062c052c042c032c022c012c002bff2ad5142f142e13f613f7148514861484148313f213f513f113f813f913fc13fd13f313f413fa13fb14761473,
  0x13d213d12ad12ad02acf13f013a313a213a02abc2c1a2c192c182c172c162c152c142c132c122c112c102c0f2c0e2c0d2c0c2c0b2c0a2c092c082c07,
  0x2add2adc2adb2ada2ad92ad82ad72ad614a614a514a414a314a214a114a0149f149e13e813e713c613c5144213ca13c913da13d913d613d513ce13cd,
  0x2afb2afa2af92af82af72af62af52af42af32af22af12af02aef2aee2aed2aec2aeb2aea2ae92ae82ae72ae62ae52ae42ae32ae22ae12ae02adf2ade,
  0x2b192b182b172b162b152b142b132b122b112b102b0f2b0e2b0d2b0c2b0b2b0a2b092b082b072b062b052b042b032b022b012b002aff2afe2afd2afc,
  0x2b332b322b312b302b2f2b2e2b2d2b2c2b2b2b2a2b292acc2acb2bfe2bfd2b282b272b262b252b242b232b222b212b202b1f2b1e2b1d2b1c2b1b2b1a,
  0x2b512b502b4f2b4e2b4d2b4c2b4b2b4a2b492b482b472b462b452b442b432b422b412b402b3f2b3e2b3d2b3c2b3b2b3a2b392b382b372b362b352b34,
  0x2b6f2b6e2b6d2b6c2b6b2b6a2b692b682b672b662b652b642b632b622b612b602b5f2b5e2b5d2b5c2b5b2b5a2b592b582b572b562b552b542b532b52,
  0x1519151815171516151515141513151215111510150f150e2aca2ac92ad22b7e2b7d2b7c2b7b2b7a2b792b782b772b762b752b742b732b722b712b70,
  0x1453145213fe2bfa2bc4153215311530152f152e152d152c152b152a1529152815271526152515241523152215211520151f151e151d151c151b151a,
  0x4b714b5f4b5a4d0c4a604c384b314ce14c6e4b294b264c4c4ccd4b0f4af74a3d4b954af04b0c4b024a5d144c14281429145014541451144f144e144d,
  0x4cd74a9f4d424cb64b994c934b944ad04b2f4b884c784c7b4c154c4d4a784c2d4c294b604c1f4c184bfb4b784abb4bcf4bd14bc14c164b934bb34aa0,
  0x158c158e158b158d2c2d157a157915774b434ad54bdc4ce64cbf4b4c4b794b3a4acd4c744add4c044c464aa32bc94c1c4a3a4c924bde4b394ab34cfd,
  0x1592157b2c282aaf2c4c161815bb15902aae2db117392c4b15ba2c3815b9158f184c169316921613161716141615161615b615b72c352c3715b82c2e,
  0x2c30157e184f15be157d2ab0381f381e20e232f21d1f184e169615941595157c2c292bc615781b56184d16951694161a161b161915bc4ab815932c2f,
  0x15c62c3a15c415c5157f48354b6838201b5719c919c818531852173a1699169a169815c315972ab119c718511850169715c015c22c3915c115bf1596,
  0x2c8016a816a42c7616a72c4f2c4d161c162316222c50163516252ace2c4e2c521624161d16211620161f161e15c915cb15ca2c3b2c3c15c815c715cc,
  0x2ceb2c732c7d2c7a169d2c72169f2c752c7e2c8116a216a116a32c7116a016ab169e169c2c792c7c2c7f2c7b16aa2c77169b16a916a62c7816a52c74,
  0x173e2cdf1742174a2ce32ce717451744173c1751173b2dbd2ce21755173d174c17492ce92ced2ce51746174b2ce017471748175217402cec17431750,
  0x186218672dc12dc32dbc2db8185f2db91857185e18542dcc18592dcb2dbf18612ce62ce4174d2ce12cee174f2ce8173f1754174e1741175617532cea,
  0x2dc718552dc5185a2dc02db22dbe18632dca2dc62dc818662dc418651856185b2dba18602db7185c2db42dbb185d2dc92dc22db6185818642db52db3,
  0x2f252f1e2f1919cf19d919d019dd2f172f1c19d62f1b2f242f1819da19d219db2f1d2f2719cd2f212f262f2819df19d319cb2f222f1a19cc19d84a4c,
  0x1b6d1b764a4e30db1b6130da1b681b741b671b5e30e630e530e030e11b701b6b1b5b1b712f2919ca19ce19d519de19d12f1f2f2319dc2f2019d419d7,
  0x30e41b751b731b5f1b6a30ea1b5c1b5d1b5a30dd1b6c30e91b6330d930e830df1b641b6e1b6f30e71b6033021b6930dc1b651b661d3030ee1b591b58,
  0x32fa1d2232ff1d26330d1d2b32f8330e1d2f1d2a32fd1d2532f933001d2732fc1d23330933031d2432fe330a1b6230e330eb30e230ed30de30ec1b72,
  0x3570357a1f0d357235791f101d211d201d2e1d291d2c1d2d330c32fb32f31d31330b1d32330632f4330535761d2833083307330132f532f7330432f6,
  0x20ea383020e4382720e620e5382d382a20ec382420e320e935711f0b356f35753577356c1f131f0e1f121f11356d356e35781f0f4c2235741f0c3573,
  0x3ade4ba13adf3ad83ad622a73ad322a522a83ad23ada22aa22a922ac382e3826382f382820ed382320e738253829382b382220e8382120eb382c3831,
  0x3d403d3f242d24253d3c242a4a5c24263d3b3d423d45242724293d3e3d4124283ad522ab3adc3add22a322a63adb3ad722ad3ad422a23ad122a43ad9,
  0x26db43cb3d3d43cd43cc26d841fb41f641f741f941f826da41fa26d93fbd3fc025af3fbf25b225b03fbe25ae3fc125b14a5e3d443d433d46242c242b,
  0x145730ef145619e0186a1868186917591757175816ac16af16ad16ae1626162715cd15ce1598158048cc29df29e047824783298d298c453a45392899,
  0x16b2162916282bcb2c362ab225b31b77186e186c186d175a16b115d115d015d215824a66186b16b015cf1581145b22ae145a4a64357b145814591d33,
  0x30f32dcf186f2dce2cf04a73175c175b4a3c4a7b4a722c8216b3162a2ab425b41b791b781b7a19e32dcd2c3d15d32ab31d3430f030f119e119e22cef,
  0x2c2a4ba922af1f151d354a7e4a7c159115834c853fc225b5242e3ae03832357c4a794a77330f4a7630f61b7b1b7c1b7e30f24a7530f54c601b7d30f4,
  0x4a84175d175e2cf32cf219af2cf116b416b82c8316b616b52c8516b72c534a83162e2c8415d715d615d515992bc8158515841870162c162b162d15d4,
  0x1b7f30fc1b8130f919e419e719e819e919e62f2b19ea2dd32f2a19e518784a85187118741872187318772dd02dd22dd12dd4187518761760175f1761,
  0x22b022b13ae23ae120ee20f0383638353833383420ef1f181f171f161d3733133311331233101d361f1930fd30f730fb30fa1b831b801b8230f84a87,
  0x2dd5187a4a894a862cf52cf417651762176417632c8616b9162f1630158648cd47844785453b4a8825b725b624323d483d47243324312430242f3c34,
  0x24343d4a3ae43ae320f220f320f520f44a8d20f11f1a1f1b1f1c1d391d3a1df333141d3b33151d384b3430fe19ec19eb4a8a19ed2f2d19ee2f2c1879,
  0x2c542c2b1d3e163315db1587357d357e1d3c1d3d30ff19ef2dd72dd62cf616ba1632163115da15d92c3e15d8159a2ab5292c453c26dc41fc25b83d49,
  0x15dd15de15df14a914a8159b4a7d158814a71d401d3f1d412f2e2dd815dc2ab646853fc34a9722b23ae520f633161b8417662c8716bb16bc2c881634,
  0x18821881188017684aa517672cf816be16bd163a163b4aa42c3f2ab7187f2cf71638163915e015891f1d19f0187c187d187b187e2c892c5516361637,
  0x22b33ae64aaf4b6a35804b671f1e357f4aae1b8631001b87331719f22f322f332f302f312dda4aac2dd92cfa2cf92c8a15e12c2c1b854aa72f2f19f1,
  0x1649164216431648164d163e159d27ec3fc44abd1b8819f34aba18851883188415e415e215e3159c158a4ab61d424ab5163c2c402ab8453d24354ab0,
  0x16c716c316c016cb16c816c116c516c216bf16c92c8b16cc16c616ca16c44aeb1644164f16454ac01646163f164a164b164c163d1641164e16401647,
  0x177a2cfc177d177c177217812cfb4ad6177b176a178417822cfd17762d07176f176d2d022d084c39177e1783176b17692d0117752d002d034ac216cd,
  0x2de94ac72de52de118982dee2de72de42def2ded18972dea2deb2cfe2d05176e177717732d0917702cff177117742d061780176c2d04177f17791778,
  0x188f2dde18924acb189b2de8189518992de02ddb1890188e2ddf2ddd188b2ddc2de3189a1891188c2de21889188d189418872de618862f4618932f42,
  0x2f4519fe2f431a062f3419f92f3b2f3e19fb1a052f481a032f3c2f3619f41a0419ff1a0719f61a0819fa2f374acc2f442f352f4118962dec1888188a,
  0x1b8f310f1b971b94310c1b981b931b8931051b991b8e310731021b9531142f472f3d2f3819f719f81a0219fc2f402f3f1a012f3919fd1a0019f51a09,
  0x331e1b9a3101310831031b923104310d1b8a1b9d31153326311731101b96310b1b9b1b90310e310a31161b8b31091b9c1b8d31111b91311331123106,
  0x331b332f1d4b4a92332b4ad41d4433251d471d4a1d58332e1f30331a332d332a1d521b8c33213322331d1d5733271d4c33231d501d53332c1d554ac4,
  0x358c1f2035931f3635901f221f1f3585331933181d451d4633281d511d5633201d491de01d484aca1d541d591d4d1d4f4b133324331f331c1d4e3329,
  0x35923583358f358d358735951f2f1f241f271f321f391f2535941f293588358e3581358a3596384435911f2b1f231f3735891f2a4ad8203f1f2c1f26,
  0x383a384520fb384b3839383b383c2107384920fd2105210438403837384d383e38421f33358b1f2d1f311f351f2e35841f341f381f284ad935821f21,
  0x22b422b83aeb3af13af522be22c3384a2101384120f8145c20fa2106210020ff3847210320f7383d20fc38382102384c38483846383f20f9384320fe,
  0x244224363d583d5b243c3ae722c03af23aed22b622b722bf3ae822b93aef3aea22c23aec22bd22bc3ae922bb22c122ba4ada3af33af03aee22b53af4,
  0x25b93d53243f243d4ae7243e4ae63d4d3d503d513d4b3d5235863d4c3d4f3d55243a3d593d5724373d5c24383d5a4ae124413d4e243b3d5624392443,
  0x4204420626de4205420325bb25be3fce25c624403fc83fcc25c23fc525c33fc73fcb25c425ba25bf25bc25c03fc925c125bd3fca25c53fc63fcd3d54,
  0x29304688468627ee453f4543453e4542292d45414540289a43d243cf43d143d343ce43d027ed41fd26df26e226dd41ff41fe26e1420026e042014202,
  0x17872c8c16ce2c8d16cf16d0165016512c314987493e2a43493f2a1a483829e229e329e14836483747862990298e298f478847872931292e292f4687,
  0x22c422c5384e210921081f3a35971d5b33301d5c1d5a33311b9f1b9e311931184aec1a0a189c2df12df04ae917864aed2d0a4aee178817852d0b2d0c,
  0x2d1117892d10178d4af22d0e4b084af62d0d178b178f17922c9016d116d216d62c8e16d416d52c8f16d716d32c572c562c41159e49c33fcf3fd03d5d,
  0x1a0b2df92e0018a42dfb189e2df82dfa2dfd2dfc2df32df62df72df22df42df5189f18a02dff18a218a32dfe18a12d12178a17901791178e178c2d0f,
  0x312431203121311e3127312231232f491a112f552f4c1a0e1a0f1a0d2f4b2f4a2f4f2f502f562f542f522f4e2f572f511a124b962f532f4d1a0c189d,
  0x3343334d334f334133393345334e334a4af933441d623342333433461d611d5d3336311c1ba1311d3126333f1a10311a1ba23125311f1ba31ba03128,
  0x359a3333334933473350334c333d1d5f1ba4333b33401d601d5e33514afb1d64334b33384ab9333a334833321d631d67333c1d663335359f3337333e,
  0x385c35ac35a835a9359935a61d651f3d35a4311b1f401f3f1f3b35a735aa35ab1f3c3598359e359c4afe35a11f3e359d1f411f43359b1f4235a235a3,
  0x3855211221103850385a3851385d2114210a38584b00385b210e3859210c210d3856210f384f2115210b385238573853211121162113385435a035a5,
  0x24483af93b0722c93b013af83b083b023afe22ca3af63b053b003afa22cc22c83b043afb24443afc22c722cd3af73b063aff22cb3b0322c63afd385e,
  0x3fd33fd125c93fd825ca3fd625c73fd425c83fd23fd74a0f3fd524473d603d6324493d643d5e4b01244a25ac244b3d653d623d663d61244524463d5f,
  0x4b061f451f442f58179315e5159f2a4448ce48cf29324689289d4b03289c289b45454b044546454427ef27f0420726e3420826e4420a26e5420926e6,
  0x2c4315e715e815e615a122cf22d122d01d684b0d18a516d916d82c58165215a0299145474cab1ba531292f592e012ab92d132c423d673b0922ce385f,
  0x21171d6935ad1f4633521ba81ba71ba61a1318aa2f5a1a141a171a151a16312a18a618a818a72e0218a92d1417942c9116db16da16542c59165315e9,
  0x2d1b2d1c2d19179c179f2c9416dc16de16e116e22c922c982c9616df2c932c9516e016dd2c971656165515a248d0483943d425cb244c3b0a22d222d3,
  0x2e0f2e0b18ac2e0418ae2e0a2e032e1218b82e072e0e18b718af17972d1d2d1517a0179d17992d1a2d1e2d1717981795179a2d162d18179b179e1796,
  0x2f5b2f6c2f5c2f601a182f681a204b1b1a192e0d18ad18b518b918b018b22e052e0618b32e0818b418b64b162e112e1318b118ba2e0c2e092e1018ab,
  0x1bb431321bb51a1d1a222f5e1a1a2f6d2f622f631a232f614b222f672f642f6b2f6e2f6a2f662f5f2f5d2f6f1baf1a1f2f691a1c1a211a1e2f651a1b,
  0x33721d6b1d6f33691d70336b335835bb1d6a33593134312e312d1bb21bb34b121bb11bb01bac31331bab1bad312b1baa3131312c312f1bae1ba93130,
  0x33561d6d335d33604b251d713353335c33573363337333661d723354336133713355335f33643370335b336a336c1d741d6c3367336f1d7333653362,
  0x1f4b1f4835be4b2a35b935af35c71f4a4c6b387335c6336835c435c035bd4c9935bc35bf1f4935c335b635c235b135b41f47336d335a335e1d6e336e,
  0x3868211b211c211d386a386338723864386c38703866386f211e21203865386735ae35ba35b84b2435c11f4c35b535b735b24ba235b035b335c835c5,
  0x22d53b0d22da3b1422d43b153b1c3b183b193b0b3b163b103b1a22d922d722d83b0e4b2c3871211a3862386e211938693860386b3861211f2118386d,
  0x3fde3fdf3d742451244f244d24523d723d733d6d3d6f3d713d683d6a244e4a123d703d6e3d6b3d6c24503d693b133b0c3b113b173b123b0f22d63b1b,
  0x2933454a4549454843d527f125cd420d26e742124213420b420f26e83fe142104211420c26e9420e3fdc3fe33fe425cc3fdb3fe23fda3fd93fe03fdd,
  0x337531351bb61a242e1518bc18bd2e1418bb17a117a217a417a316e416e32c99165715ea15a515a415a3494048d1483b483a4789478a4ceb468a2934,
  0x18be2e172e162d2017a72d1f17a517a616e816e616e516e72c5b16584a6e2c5a2aba29e429354b37421426ea25ce3b1d4b3522db1f4d33741f4e1d75,
  0x1d771d781d79337633771d7a1bbe1bbf1bba1bbd1bbb1bb91bb81bbc313731384bac2f7031361a261a291a271a251a284b4218c118c318bf18c218c0,
  0x35c9245522e122dd22e022df22e33b1f22e222de3b1e22e422dc387638754cf538744b3c35cc1f511f4f35cd1f5235cf35ca1f5035cb35ce1d761d7b,
  0x4b462c5c15eb2c4415a725d022e535d01f541f531d7c1d7d1d7e4b441bc031391a2a4b0716e915a62936289e4b414216421525cf3fe5245324542456,
  0x4b4b18c52e1918c718c62e1817aa17a917ab17ac16592c5d15ed15bd15a926eb38781f5535d117a82d222d212c9b15ec15a8387718c416ea2c9a4b48,
  0x2c5e2c5f15aa15ee2c334941299243d743d626ec3d75245824573b2022e61d7f1d811d8033781bb7313a1bc2313b1bc11bc31a2c1a2b1a2d2f711a2e,
  0x2e2b2e282e1b2e222e2418c92e1c2e212e274c9c2d2c17af2d2b2d2817ae17ad2d242d2317b02d262d292d272d252d2a4b4d2c9f2c9c2c9e2c9d16eb,
  0x2f7f2f7e1a302f722f802f832f742f762f7c2f7a2f812f7b2f824b5718ca18c82e292e1d18ce18cd2e2a2e1e2e1a2e232e2018cc2e2518cb2e1f2e26,
  0x337a1d821d831bcb3141313d1bc51bc631422f8531401bca1bcc313f1bc94b4f313e1bc4313c1bc74b4e1bc82f842f782f772f791a2f2f732f752f7d,
  0x35e735e0338433881d89337f1d8d338133821d8c33861d87337d33873379337b1d85337c1d8b4b541d8e1d861d8a33851d884b5333831d843380337e,
  0x3882387f35e135db35de35d91f5735da1f5635d6387b35e41f594b5535ea35d335e235d535e935d735df35e635dd35e335e535d235e835d81f5835dc,
  0x3d7b3d793b2d4b503b283b293b2a22e83b2422e73b213b263b223b2f3b2b3b233b2c3b253b2e3b27387d38792122387e35d4212138803881387c387a,
  0x26ed26ee26f042174b873fea3ff23fef3fe73feb3ff13fec3ff03fe63fed3fe83fee3fe93d7a3d7f3d7d3d783d8124593d7e3d803d763d773d7c245a,
  0x1bcd17b1165a165b165c15ac1d8f183e2d2d2ca016ec15ab2abb48d24b582a1b483c29e529e6483d478c2993478b2937468c468b454b44e243d826ef,
  0x2f8a1a341a3218d318d02e2e18cf2e2c18d118d22e2d18d42d2f17b22d2e4b6c16ed2c60165e165d2c4515b01f5a2f861a3115ef15af15ae15ad3883,
  0x22ed3b323884388538872123388838861f5b35eb1f5e35ec1f5d33891f5c1d901d931d91338a1d924b611bce1bcf314331441a332f8b2f892f882f87,
  0x212418d516ee2ca116ef165f15b1454c3ff643da43d9421826f142193d823ff43ff33ff522ea245b245d3d84245c3d833d8522e93b313b3022ec22eb,
  0x1a372f912f8d2f902f8e1a3618d82f8f18d618d718da18d917b32d342d322d3017b52d312d3317b42ca24b332c622c612abd1f5f1a35166015f04b64,
  0x3b36388a388c1f6021252126388d388b38891f631f621f611d98338d1d951d941d961d97338c338f338e338b2f8c31461bd131481bd0314731451bd2,
  0x483e478d468e468d28a03ff73ffa3ff83ff93ffb2462245e3d89246324603d8824613b373d87245f3b393b333b3522ef3b383b3b22ee3b3a3b344b69,
  0x17b82d3616f12ca41662166315f315f215b4212716f04b7515b322f01a392f922d3517b72ca3166115f115b24b724b701a384b6f17b618db2abe2a66,
  0x2abf48d429e726f23ffc25d13d8a246422f13b3c3b3d388e1f644b7b33911d9a33901d9931491bd3314a2f931a3a18de2e2f18dd18dc2e322e312e30,
  0x2e3618e24a8217bc2d3717bb2d382ca52c344b83246522f23b3e1f651d9c1d9e1ead1d9d314b1a3b17b94b8017ba2ac027f2212835ed1d9b2f942e33,
  0x4b8635ee35ef4a561da31da433941da11da533921da01da21d9f33931bd41bd51bd61a411a3f1a3e1a421a3c1a402f951a3d2e3418e018df18e12e35,
  0x2ca72d392d3a2d3b2ca817c017be2c63166415f44690468f454d421a26f33ffd421b22f324663b3f24673d8b388f212a3890212935f01f671f661f68,
  0x2d4718e718e52d462d4317c32d4518e62d482d3f17c12d442d3e2d3c17c217c42d3d2e382d412d422d4018e44be22e3718e316f217bd17bf16f32ca6,
  0x1a4818f02e3a1a462fa44bb62e4518ef1a452e431a442e4d18f32e422e3b2e4018ec18ee18e92e491a432e4a2e4718e81a472e462e4b2e3d2e3f2e4c,
  0x2f982f9c4a101bda1a492fa04a9e2f9e2f9d1a4d2f9b2fa51a4e2fa2314f2fa12f972f9618eb2e3e2e412e3c4b9018ea2e482e392e4418f218ed18f1,
  0x1be51bdf3156315431521da62f991a4a1bde2fa81bdc1a4f1a501a511bdd1a4b314e2fa71bd91a521bd81a4c2fa32f9a314c2f9f314d1bd72fa61bdb,
  0x1dac4b9c1f6b33a233991daa4b9b1da731501da91be04b9a3155315b31581be131591be631571be331533396315c1be21be433951da83151315a3397,
  0x1db5339c339b1f69339d35f533a835f31dab33a535f133a11dba1db61daf35f633a7360133a933a633981dae1db31db0339a35f21db833a41f6c1db1,
  0x21321f7a3606360035ff1f731f70213135fe38911f7835fc1f74212f35f81f761f721dad339e35f41f6a1f6d1db74c3033a01db233a31db9339f1db4,
  0x38983b403894389c3b41213a1f6f212e36041f6e2130212b360335fa1f7135f735fd1f7b3605212c1f77213b360835f91f792133213c35fb36073602,
  0x22fb22fc3b53246c3b4c3b473b46389b21342137213522f638933892212d22f43899389521364ba53b42389d22f521383b50213d389621393897389a,
  0x2471246e3b4d3d8e22f7246822fd3b4b3b453b483b44246f246a3b4924703b511f7524693d9c3b4f4ba322f922f83b524b3d22fa3b43246b4bb73b4e,
  0x247624743d9925d43fff247224783d913d9a3d973ffe3d932477400024793d943d9825d3247324753d9b40093d8c25d53d924bab3d8d246d4ba83b4a,
  0x43e34baf4bb225d6400526f825d926f425da26f640034001421c26f54004400725d8421e4006400825d7421d40023d9d25d23d8f3d903d95247a3d96,
  0x2a1c29e82995478e2994454e29394691293828a228a328a428a143df43e143de43dd43e243e043e44223421f26f74221422227f3422043dc422443db,
  0x3b5622fe3b543b5538a138a238a0213f213e389e1f7c1dbc1dbb315d18f418f52e4e17c517c616f716f416f616f516652c6415f549f048d748d648d5,
  0x2caf16fa16671666166816692c6515f815b515f736091f7d1dbd1be7315e2faa2fa91a5318f818f618f72e4f2d4915f626fa27f426f925db247b3d9e,
  0x2d5417ca18f917d02d5717cf2d512d5217d12d5617cb2d5917d22d582d502d5317d417d617cd2cad2cb22cab16f82cae2cac2cb02caa2ca916f92cb1,
  0x2e512e5819102e5c2e592e572e50191519022e542e5b190717d517c817c917d72d4e17d817d317d92d4d2d4c2d4b17ce17cc2d552d4f17da17c72d4a,
  0x191319124bbd1904190319002e52190a2fab1916190d18fb19052e5618fa1906190c19144bbb18fc18fe18fd2e53190819092e5a18ff2e5d2e55190e,
  0x1a641a592fb71bea1a611a5b1a572fbc2fba2fb22fb51a5e2fb62fae1a621be8315f1a5d2fbd1a5f1a5a1a581a602fb14a461a541901190f190b1911,
  0x33c11bf3316831773165316e317433aa1bed317231621bf71bf6316c1bf81a552fbb2fb92fb81a6331602fb32faf2fac2fb42fad1a561be91a5c2fb0,
  0x1dc533ab31753171316f317831611bee317031761bf41bf11beb1bf91bfa3169316a1bf2317a31731bf03164316331661bef316d31791bec1bf5316b,
  0x1f7f4bb933ac1dca1dd033b733c41dcf1dcb33ad33c51dd633ae33bf1dd71dda33c31dc41f8d33bb1dc01dc833c833b633b933bd4bbf1dcd1dd81dd9,
  0x33be33b11dd333b41dc71dc91dce1dbf1dc333c01f7e1dc21dd21dbe33c233b033b233bc1dcc1dd11dc633b31dc1360a1dd433c633b81dd533b533c7,
  0x1f901f923629362036281f8a361736211f861f881f80360d1f853624362536141f83362636231f8438a3361f361136221f81361c33af360b360c33ba,
  0x38b438c038bb38a8214e1f934bc3361636191f8e3613361838a4362736101f8c1f8b38a51f8f1f82360f38c1360e31671f871f893615361b361d361e,
  0x38c3214421463b57214338b738bf38b538be38aa38b338b238c438a938ad2142214838c238bc38af214d214c38ae2149214038a738a6214738c5214a,
  0x3b653b5a3b663b593b6f230023013b681f9123063b6a3b633b583b6738ac38b838bd3b6c214121454bd038b04bc238b1214b38b9230838ab38b638ba,
  0x248122ff3da33b643b6b3b5f230a2305247e23033b713b5c3b603b5b3b5e3b5d3da0247d3d9f23093b6d3b6e247c3dac23073b613b70361a3b692304,
  0x4d1b2489248a248d248b24873b62248423023daa248f3da23dab247f36123da5248c248e3dae3da43da124862485248824823da63da93da73da84010,
  0x401225e1401426fd400a400b25e825e7400c400d26fb25e525de26fc400e25e325dc25e2401125e425dd25e625e9400f25e025df249024803dad2483,
  0x43e643ea43e928a543e527f743e743eb27fa27f943e827fb27f5401327f6270226ff42252704270142284226422a27004bcd4229422727034bcc26fe,
  0x2a452a1e2a1f48d8484148d929e92a1d4842483f48404bb829962997478f293c293a469246934694293b4695455028a64554455145534552454f27f8,
  0x1de21ddf1ddc1de31de433c91ddd1de14bd2317b1bfc1bfb317c1a662fbf2fbe1a6519172e5e17dc17db17dd2d5a16fb2ac14015362a15f949884942,
  0x422b422c401640173db23db03db1249324923daf249125ea3b72230b38c64bd7214f362c362f362b1f953630362d1f971f964bd81f941ddb362e1dde,
  0x1de71a672fc02e5f1918166a15fc4018230c3b732150363336321de51de61bfd15fb48da299843ec38c71f981f9936314b3615fa4bd6455527062705,
  0x230e38c836364bdd36351de81deb33ca1dea1de9317d1bff317f317e31801bfe2fc11a6819192e6015fd498927fc422d4bda3db43db321511f9a3634,
  0x191f19212e6b2e622e66191a2d5f2d5c2d5d2d5e17de2d5b2cb32cb416ff16fe16fc16fd166b15fe4be11a692c462ac246964556455743ed422e230d,
  0x2fc71a6a1a724ccc2fc82fc31a6c1a6f2fcc2fc64be41923191b191c2e642e6c2e6d192219202e69191d2e6819242e612e651925191e2e6a2e632e67,
  0x1ded33ce4ac51c0431841c021c054bea31811c0131831c064be71c031c001c072fcb2fce2fc22fc52fcd2fc92fc41a711a6e2fcf1a6b2fca1a701a6d,
  0x363a1fa2363736391fa1363c38d11fa31f9e1f9d4bee363e363b1f9c1f9f1f9b3638363d1def4bec1df033cb1dee33d033cc31821df11dec33cf33cd,
  0x24944ae524953dba3db723104ae4230f3b743b753b76231138cf21582152215638cb38d01fa038cc215938ca38cd38ce21532155215438c94b912157,
  0x43ee270743f02708422f401e4ae24022401d401c25ec401925ef25eb25ee401b401a401f4020402125ed25f03db93db524964adf3db824973db63dbb,
  0x3b78215a4bf8363f1f141fa51fa41d431df21c081a732e6e17df1701170015ff494449432a2048db29994697293d4699469828a7455828a827fd43ef,
  0x1705166c1670166d166f166e1601293e27fe40233b7939e038d21fa61fa71df433d11c0b1c0a1c09318631852fd12fd0192619272e6f170216003b77,
  0x2d682d6217ec17e62d6317eb17e417e317e217e12d672d642d6917e82d652d6117e92d604a452cba2cb517032cbb2cb82cb92cb62cb7170617042cbc,
  0x2e782e802e82193419362e81193b2e752e7c2e842e83192e2e7419382e79192d193d192b1933193219282e71193c4bff4c0017ea17e017e72d6617e5,
  0x2fe01a812fe22fec4c2a1a881a7b2ff14c192e7d1930192c19392e7f2e761931192a2e85193a2e732e7e19372e722e7a2e7b19291935192f2e772e70,
  0x1a821a892fd94c031a771a751a8c1a801a781a852fe92fe12ff02ff92ff62ff52fd42fee2fdc1a7f2ff72fe72fd22fda2fd72fd52fe81a842fdb1a7a,
  0x1a742fed2ff42fd82fe32fe41a7c1c1a1a872fd31a762feb1a7e2fe52fef1a792fdd2ff81a7d2fea2ff21a832fde2fe61a8a2fdf1a861a8b2fd62ff3,
  0x31923198318b318a31903195319e319431931c1f1c14319d319c31a14c051c0c31a23187319931914a9c31881c221c16318f319b1c21319a4cb84c08,
  0x33d733d633e64c0b1c131c101c181c1b318e3196319f1c17318d31891c0e1c0f1c2031971c1e1c121c231c1c4b731c191c1d318c31a01c111c0d4c53,
  0x1df833e433f433d433e233f533ee33f633f033d31e031e041e001e0a1df533e91dfa33eb33f733e533f333d233f233e31dfb33df33e033e733ea33db,
  0x4c114cb31df936561c1533e11dfc1dff1df633d81e0233dd33d933e833de1e071dfd4b0e33f133dc1df71e0933ef1e081e0633d533ec1dfe33ed1e05,
  0x1fb13667364c1fb536511faa1fae3666366536431fbc1fab1fac36491fa9366b36411fb33669365c36631fb736531fb64d271fbb3664366f36591e01,
  0x36543652366a1fad36424cd34d394c134c14365d365e1fbe1fa81fb2365b364a364d1faf366836501fb4364738e836581fb03645364b3646366c365f,
  0x38d94a8038e638fe38f438dc38d538f64c1d38e338ea38e538fa216238fc3644366e3662366d365a364e1fb93657364f36481fba1fb8364036603661,
  0x216c38d74c1a215f38d42167216b38f7216d215d38df38f038de33da2160216838fb38f938f838d638f338f5216438e238e138da38ee38dd38f138ec,
  0x215b3b953b833b9b3b853b87216a396d216338fd38e0216938e9215e38ef216138f24c1038d8365538ed1fbd215c38e4216638db38eb216538d338e7,
  0x3b7b3b9d231d3b943b7a3b803b8a231623203b81231c3b963b8823133b8623223b9e3b8e23243b973b7d3b98231223193b923b844c1e3b9a3b7f2314,
  0x249a3dd03dd33dbf3dc33dc74c0d3b993b8f2317231e3b933b7e231f232123183b913b7c3b9f3b8c23233b9c23153b8b3b893b8d3b82231b3b90231a,
  0x3dd54c0e24a13dd83dd23ddf3dbd24a43dd924a3249b3dbc3dc53dca249e3dd63dd44bfc4c233dc03dcf3ddd3de024a23dcc3dc23dcd24a53dc63dd7,
  0x25f1403d403225f325f725f225fd402440284ce440303dcb3dde3ddb2498249f3dc42499249c3dc93dc8249d3dda3dbe3de13dc13dce24a024a63ddc,
  0x403625f925fa403c25fe403e402b402e403125f425f6403f40404039402f403740384042404125fb402625ff25fc40434c2625f840343dd14033402a,
  0x27114231423c270a423a424642402712423b423042454b62423442394244270b423d4232270942412710402d403a402c25f54035403b402940274025,
  0x43f12801280443f3280243f643f2280343f843f743fa27ff2806280543fb2800423e42424233423f270f270c42372713423542384c28270d42364243,
  0x469a469f469b46a146a0293f4562469c469d455928a943f4455a455f456528aa4560270e28ab455d28ac455c456145634564455b455e4c2b43f943f5,
  0x2ffa2e86193e1707160249f14c2e498d498b498a498c2a67494548dd48dc2a2148de484329ea48454844299b4792479047944791299a299c469e4793,
  0x3ba123263ba23ba023253903216e38ff390039013902390436721fbf1fc1367336711fc0367033fb33fa33f84c3131a733f91e0b31a631a431a531a3,
  0x19412e8817091604280826013e604c32216f31a81a8d1940193f17ed17081671160329eb4566280743fc2714424726004046404440453de224a724a8,
  0x404840473de63de324a93de43de53ba53ba43ba3390536761fc236751fc33677367433fc33fd33ff33fe34001c241c2531aa1a8f2ffc1a8e2ffb2e87,
  0x21721a912d6a17ee16722c48160548df43fd404a404b24ab24aa3ba73ba62170217136781fc41e0c1c262ffd1a902c47299d45672809271542484049,
  0x3de93ba82173390839073909390b390a367b367a36791fc51e0e1e0d31ad31b031ab31ac31ae31af4c3b30002e894c3d160727162fff1a922ffe1606,
  0x31b11c2b1c27300230011a932e8a19432d6c2d6b2cbd170a2c662c4919421673167416084846456843fe42492717404e2602404c404d3dea3de73de8,
  0x17102cc1171517142cc52cc42cc24ab72cbe2c6817ef167616772c6916782c6a16754c3e2c6716092327367c1fc71fc61fc81e0f34011c291c281c2a,
  0x2d6d180518032d7c18012d7317fa2d744af42d772d6f17f72d7517fc2d6e2d7b2d7d1712170f170e17f0170b2cc017134c42170d170c17112cc32cbf,
  0x2d7617f1180817fd2d7918072e8b17fe17f92d722d7f180617fb2d712e9f17f417f32d78180417f52d701800180917f22ea1180217ff2d7e17f84c44,
  0x1a942ea62e99195819532e982e9619552ea3195a194c194b194d195b2e97195419522e942e902e9e194a19472ea719562e92195f194f2ea02d7a17f6,
  0x2e9a2e8c2e8d2eaa19452e9319491944194e195c19632ea22e9d1961195d300b2e8f1957196219502e9119512e9c2eab2e952ea92ea519484a9a195e,
  0x1aa23010300e30161a9d31d130093011302130191aaa31b61a9a1a95300a3020301e301b300d3018301530122ea81aa319462e9b19591c2c19602e8e,
  0x1aa01a9f30071a9e300f1aa41aa630171aa11aa93004300c1a961a9b2ea431cb1aa83005301d1aab1a971aa730031aa51a99301f301c30061a9c3013,
  0x31d51c3a4b1f31c631bc1c3831bb1c361c2d1c3b31cc31c31c311c4031b431b331ba31b731c431c831c24c584ac61c391c3431b930141a98301a3008,
  0x1c2e1c411c3531b831bd31d61e1031be1c3c31cd1c3d1c371c2f1c3031c11c3f31d031d231c931cf31c031ce31d431c731d331b21c3e1c321c3331b5,
  0x1e1c34183420340e1e1b1e301e251e31341e34021e34341234191e113428341c1e22340a1e28340434051e141e1d1e1f340734031e3231ca31c54c57,
  0x1e2a1e2c34081e2f1e3534131e17342734091e15340f34101e203415341434161e291e131e2b34253411341d340c34231e261e1e3421341f34261e16,
  0x1fd2369e1fcc1fd036801fe1368c1fd31e271fe51e1a3692340d3424367d1e181e191e211e23340b1e2434171e1234221e2d341b31bf1e2e341a1e33,
  0x1fe81fe03689368f36881fe23684368336911fde369d1fca36ab36aa1fdc368d1fcd3698369f1fc936931fd91fdf36874d40369936a21fda1fd11fd6,
  0x36a136a41fe736863697369a1feb3694368a36961fd436ac4b101fd51fd736a61fcb36a036a836904c064c6a1fe61fdd368e1fcf3681367f367e3685,
  0x2184390c3927217e393121833913391239282179390f3929392a1fe436824c5936a736a336a53406368b1fe9369b1fdb1fd8369c1fea36951fce36a9,
  0x3910392d39233919217f21803916391d21774c342189392e39223915391e217539322181218721883920217d392b39332174392c39143911391b217a,
  0x3bbf3bba23403bc539254a594a933926390d24bd2186217639182182392f39213ba9391f23431fe33930391c390e217b3917217c218539242178391a,
  0x3bb923313bc73bd13bbb3bb23bd33bc623363bc94c5a3bac233223413e042334232a3bca3bce3bb04c713bbe3bae23443bcb3baa232c23423bab2335,
  0x3bbc3bc42328233923373bc2233d3bb13bc02330233c233f232d3bb63dec3bad233a23333bd4232f3bd03bd23bcd3bb53bb43bb74bd3233b2329232b,
  0x24bf24c040563e034c7724b43df724bc3e003dfc24b13e0a3dfe24af3dff3df53bb34c763bc83deb3bc124ac232e4cb93bc33bb83bcf3bcc23383baf,
  0x3df624ae3dfb27203e0d3ded3e0724ad3e1224b824b53e103df94c793bbd3dfd24b924be24b624b33dfa3e063e113e0c3e0824b024ba3e0f3df43e05,
  0x4061424b405b2609260e405d2607405140652605260f4c7c40594c6f24bb3df83e0e3e013e023df03e0924b73df13df33e0b4bc73df2233e3dee24b2,
  0x4068424a4050405a4066405540523def4057260626032608260b406340584053405f260c4064260d2610260a406a2604406b4069405e404f40604067,
  0x440b424c425427192726271f272542502721271e2723425742514252271d424e42562722271b271a42534255424f271c27182724424d4c7e40624054,
  0x28b1457428ad28b0456928b34572456c28b24404280f2810440544014400280b440c280a43ff280d4403405c440244074406280c440a4408280e4c6d,
  0x46a846b046ad46aa294046a246ae46ab46ac46a946a546a346a646af294246a7294146a4456d4575457128af456a440945734570456f456e456b28ae,
  0x4a074a0649d849c449d92a762a68498e4947494949462a46494848e048e129ed484948484847484a29ec299e4c8a479747994798479b479a47964795,
  0x30232eb519682ead2eb319642eac2eaf19662eb219654af519672eb02eae2eb12eb62eb44c8d4c8b180c180b2d814ac3180d180a2d802cc61716160a,
  0x31d91c4731e831e34c8e31db1c421c4631e631e531e430244ca71aad1ab23022302930281aae302530261ab01ab31ab11aaf1aac302a4c8c1ab43027,
  0x34341e39343336b034291e363438342b3439342d3431342f1e3a1c4431dd31e931e14c9131e031da31d731e71c451c4331de4c904c8f31e231d831df,
  0x36af36b14ca14c9736b81fee36b436b336b51ff036ad36b736ae1ff336ba1fed1fec342c34363432343c342a342e343a1e381e3734353430343b3437,
  0x2195393a2190394a218b3941219839353947393639464c9e218a3949219339434c9a218e393421964c98394839423940393936b91ff136b636b21fef,
  0x3bd63bdb23483bd73bd53bdd3bd923493bda3bde3bd823473bdc393d393c39441ff22191393e218c2197218f21922194218d3937393b393f39383945,
  0x4ca52617406f3e1a4c943e233e1324c33e163e1424c23e203e1924c43e223e1c3e1e3e1f3e1724c13e1d3e1b3e213e153e1823463bdf4c952345234a,
  0x27284aa2261a407d407c26194079407026164074261426134077261840734075261226154076407b406c261c261b406d40724071406e26114078407a,
  0x45764577457828b4457a44104579440d440e2813441128122811440f2814272e425b4259425d2729272c272d425a2727272a272b425c425e4258272f,
  0x160d21991c48196b160c27301ab54cb0196a1969160b49fc2a8a49f2498f4cad494a48e2484c484b479c299f479d479e4caa46b246b129434ca828b5,
  0x180e180f181017172cc71718161036bc160f28b64cb524c54cb43be1219a394b1ff436bb302d302c196c160e27313be031ea302b4cb12c4a234b1e3b,
  0x394d36c136be36bd36bf36c01ff54cba1e3d1ff63440343d1e3c343f343e1c4931eb31ec31ed1ab830301ab6302f1ab73031302e2eb7196e196d2d82,
  0x2cc92cc82c6c16792c6b16114990484d46b329a0457c457b457d457e28b7457f407f407e24c63e253e243be2234d3be33be4234c394e394f3950394c,
  0x303330391abb1aba30362ebc2ebf19712eba19722eb82ebe2ebd2ec1197319702ec02eb930322ebb2d862d8918112d8518122d87196f2d832d842d88,
  0x34421e401e4136c23444344936ce36c334463447344331f531ee344831f11c4c1c4a31f431ef1c4b1c4d1c4e31f231f031f3303530371ab930343038,
  0x219d219e395139533954219b1ff736cd1ff936c736c936c636c44cc236ca4cbc4cbb1ffa4cc136c836cb1ff836cc36c5344a34411e3e1e3f1e423445,
  0x40864080261d4082408140843e303e2d3e2a3e293e283e2b3e2c3e2e3e2f3e2624c83e273be7234f24c73be63be839563957219c234e3be539523955,
  0x2cca16122c6d167b344b1e431c4f303a167a48e548e348e429ee484e479f46b446b5294428b928b8281544122816425f273327324261426040834085,
  0x303f30491abc3040304130421ac21abf2ec42ec819774cc4197419754ab12ec519782ec22ec62ec32ec719762ec94ab42d8b18132d8a2d8d2d8c2d8e,
  0x320231fe3200320331f73205320431f94a9d320131f631ff4cc34b471ac0303b304a1abd4cc7303d30453048303e3047303c1ac13044304631fa1abe,
  0x34521e471e44344f1e463450345334561e48345134553454344d4cd1344c344e34594a3b1c521c5030431c5431fd320631fb31f84cdd31fc1c531c55,
  0x36dd36d736d1200336cf36d636d036d21ffc36db200620051fff36d836d91ffe36d536dc36da200436d44ad736d34cd21e49345734581e451c51345a,
  0x21a821a721a021a6395d21a139654c67395b395c3960395f39613964395a39594cc84cdc39633958396221a4395e21a51ffb4cd52001200020021ffd,
  0x4ce53e3524cd408724cc3e363e393e3a4cde3bec4ce23bea3bed3beb2353219f3bef23544ce0235224c93bee4b2b235023513be94cda21a221a34d00,
  0x426742644266273427372817273642694ba0261f408d408926212622261e408826204262408c408a408b426524ca3e333e323e383e313e343e3724cb,
  0x494b2a224851484f485229a1485029a22945458028bb4cee45814583441a441644142818441728ba441946b64413458244184415426342682735426a,
  0x408e3e3b3e3c23553bf23bf13bf039673968396936de1e4c1e4b320a3209304c304b145d2ecb167d494c29ef28bc262339661e4a320832072eca167c,
  0x36df304d1ac4181418152ccb16811680200820071e4e320b167f4cf2396a1e4d1ac3167e47a045842819441b441c426d426c426b426e4cf026252624,
  0x345b345c1e51320d1c571c58320c1c591c5a1c561ac51ac74cf81ac61ac84cf9304f304e2ecd2ecc2ece19792d8f2d90181718161685168416831682,
  0x2d922d912ac323563bf41e534cff2ecf168629f028bd28be426f408f24ce3e3d3bf3396b21aa396c21a91e5236e04cfb36e12009200a4cfa1e501e4f,
  0x32111c63320f321232131c5b1c601c61321032151c621c6432141e564d021c5f1c5e320e1ac9305130501acb1aca1acd1acc4d01197a197c197b2ed0,
  0x396e397936e236e536e8200d200b36e4201136e7201036e6200c36e3200e200f36e91e551e54345e34623463345f345d1e58346134601e571c5d1c5c,
  0x235b3bf93976396f23583bf723593bfa235a3bf639704d0321ad21ab21b13972397b3973397721b03974397539713978397a21b221b321ae21af21ac,
  0x2627409626264094409740924098409040914d0424d03e45235724d33e3e24d23e4324d524d424cf24d13e3f3e413e423e463e443e403bf53bf83bfb,
  0x29f247a129a32947441e294628c0458528bf441d4423441f281b4422281a4421281c4d0544204d06273a427242714273273842702739409340952628,
  0x36ea201536eb4d0a34641e591c65321634651ad11ad01acf197d18182d932ccc171916872013201230521ace2ac44a022a482a4748e64d0729f14853,
  0x1ad530531ad4197e168946b94425409924d73bfc4d11397d20161c662ed11688485446b746b844244d1042744d0f3e493e483e473e4a24d6397c2014,
  0x2ed32ed41819168a46ba4426273b42752629409a262a24d8235d235c21b521b4397e20171e5c36ec1e5a34661e5b1c691c684d121c6732171ad21ad3,
  0x4d183218321932213220321f321b321c321e321a1ada30581ad930541add3057305630551ad61adb1adc305a305b1ad71ad830592ed519802ed2197f,
  0x36ee36ed36f136ef4d1a1e5e346e1e5f34701e6234671e611e5d1e603471346c346d346b346a346834691c6a1c6d32234d19346f321d32221c6c1c6b,
  0x398921bd21b721bc398521c0398621b821bf21ba21c123613981398021b921be21b6398439884d1d3983397f39873982201836f336f036f536f436f2,
  0x262c409c409e409f409b40a340a440a224dc3e4c24d93e4b24db24dd3e4d3e4e24da3bff235e3c053c003bfd3c0223603c04235f3bfe21bb3c033c01,
  0x28c14bf545884427281e281d2820281f44284279427a4276427b273c4278427c273e4d1f2741273f4277273d427d2740262e40a140a0409d262b262d,
  0x427e274221c2201936f71c6e305d305c4aab1981181a168c398a36f61ade168b2a77499249912a49494d48e729a447a246bd46bc46be46bb45874586,
  0x3226322c1c771c781c721ae030673060305f3062306330641ae21ae13065305e306130661adf19822ed72ed92eda2ed82ed62edb4d23168d46bf4589,
  0x347a1e653475347734763474347234791e644a441c711c7432271c73322e1c7932301c6f3228322a1c763225322b322f322d32291c7034781c753224,
  0x398b39923991398f39944a0c399721cc3c0b21c93999399536fd3700201c36ff36fc201b1e6336fe3701370236fa36f9370436f83703201a36fb3473,
  0x21c44d283c093c103c0c3c0723663c0a23643c0e3c1223673c1139933c0f23633c0d398c399621c621c539983990398d21cb21ca398e21c321c721c8,
  0x40a540ab26304d2e24e33e554d2a3e5324e53e513e543e4f3e5224de24e13e593e564d2924df3e583e57236224e224e43e5024e03c0823653c064d30,
  0x4285428842812747442942874280428342822744428627432745427f42844ae8274640ae263140a840a6262f263240a740aa40ad40ac40b040af40a9,
  0x4d2f47a447a54d2c47a3294a294b294946c546c346c2294846c046c446c1458c458f458a458d458b28c2458e442c442b442f4430442e2821442a442d,
  0x1c821c811c7e1c7a32313235323632371c7b32333069306a30681ae41ae51ae61ae3306b306c2edc198519842edd19832d944d3e168e4993494e4855,
  0x4d37399b21cf4d3a21ce399c399a21cd399d3705370637074b9837081e683480347e347d1e67347c1e66347b347f34811c7c1c7d1c7f1c8032343232,
  0x44314432428927494d3f428a2748263340b13e5e3e5b3e5c4d3c3e5d3e5f3e5a3c133c1a3c163c173c183c193c1c3c1d23692368236a3c153c143c1b,
  0x306d4d451aea1ae9306f3071306e4c691aeb198619874d432ede181b181c181d168f21d134821ae81ae72c6e494f4950485629f346c628c345902822,
  0x201f370a201e2020370d370b370920211e693483348434863485323b323c32393238323d1c881c851c871c831c84323a1c86323f3240323e1c893070,
  0x24e924e724eb3e6124ea236c3c203c21236b3c1e3c223c2339a421d421d621d721d239a621d339a0399f39a239a321d539a539a1399e39a7201d370c,
  0x485746c746c946c828c428c5459245912824282328254433428b428c4290428e274a428d428f26352634263726383c1f40b340b4263640b224e824e6,
  0x370e2022202320241e6b34881e6a3489348732453244324632421c8b3247324132431c8a1aed30721aec30732ee0198819892edf181e2ccd16904858,
  0x16912a23294c2827282642934292274b4291263940b640b940b540b73e633e643e6240b824ec24ed3c263c25236d236e3c2439a839a921d921d839aa,
  0x324d3250324f3251324e1c8d324c324a307630751aee1aef2ee1198a171a46ca294d23703c27236f39ab370f2025371020261f011f021c8c32483074,
  0x349a348a348c349134993495348e34981e7334971e6f349634931e6d1e70348d3490349c348f1e6c1e7234941e6e349b1e713492324b32521c8e3249,
  0x21dd39ae39b021de39ac39b239ad39b939b621dc37182028202c202b2030202a202f3716202d3715202e371120273714348b20293719371337173712,
  0x3c293c303c353c3323753c2d237223773c2b3c2c23783c313c2e3c2f23733c2a3c28237a3c32237b3c3739b721da39b8237439af39b339b139b439b5,
  0x263e40c0263a40c840be40c33e6924f63e663e6c263c24f324f224f024f421db3e673e6b23793e653e6d24f124ef3e6a24ee3e683c36237124f52376,
  0x42a142974298274e42a3429940c242a2274f429b429d429642a642a540c740c4264040c140bc264140bf263d40bb40c5263f275140c940ba40bd40c6,
  0x282a4435443c2829443b443e282c443d282d44374438282b443a443444364a8b263b42a74295429a274d2750429c42a8429f274c42a4429442a0429e,
  0x485a485c485d485b485947a647a729a52950294e46cd46cb46cc46ce46cf294f28cb28c728c628c945944597459528c828ca4593443f443945962828,
  0x3258325632551c8f325732593253307c307b307a1af03077307930782ee2171b2a8f49c52a6a2a6949954951499448e848e92a262a242a2529f429f5,
  0x3e6f3e6e3c39237e237d3c3a3c383c3b237c21e139bb21e039ba21df39bc371c4a11203234a0371a371d2031371b349e1e75349f1e76349d1e743254,
  0x49da4996485e47a8485f2952295146d04598459942a9282e275527522756275427582753275740cc2643264240cb40ca40ce40cd145e3e703e7124f7,
  0x1c9c325e1c91325f1c981c9632603262325c1c973263325d1c9b32641c921c931af4307e1af51af71af21af6307d1af1307f1af3198b2ee3181f171c,
  0x1e7d34ac34ab34a21e7c34ae34a51e7b34a334a434a11e7f1e831e841e7e1e811e7a34a7203734a834af1c951c901c943261325a325b1c9a1c9d1c99,
  0x3724372b20353723203b3720203c203a372d2033372721e7371e37222036372a37213729372c20343725372e34ad34aa1e7734a61e801e781e8234a9,
  0x3c4c39c921e239cc21e421e639c439c039c839bd39be39c239ca39c621e539bf39c139cb39c739c539c321e3203e20391e79203d371f203837263728,
  0x238b238323823c4d237f23893c4b238d3c3d238c23862387238823803c4a3c50238e23913c403c513c3c3c4f3c3f238a3c5223843c4e25043c442381,
  0x24fd3e74250324ff3e753e7a25003e7724f83e7f250224fe3e732501250524fc3e76238f3c453c493c4823853c5323903c473c433c463c3e3c413c42,
  0x40d940d140dd40d840df40d540cf2645264c40dc40d640de40d240db2644264b26463e7824fb3e7925073e723e7b24f93d8625063e7c3e7d24fa3e7e,
  0x42ab42b742ba276542af275c42b82767276442ad275d276142b62769275942aa275f42b042b440e040e1264840da40d040d440d32649264a40d72647,
  0x28334448444628314440283228354444444944422830282f444a28344447444142b542b1276642b3275b276242b9275e42ac276342b22768275a2760,
  0x47ac47a947ab47aa47ad295646d346d446d22954295546d145a028ce459c459e459a459b45a228d245a1459d459f28cd28cc28d028cf45a344434445,
  0x486147af295745a445a5283642bb276a40e23730372f1e851c9e31dc1af8171d2a7d49994997499a499849522a2848ea2a292a27486029a647ae29a7,
  0x264d25093e8025083c5421eb239221e839cd39d139ce21ea21e939d039cf3732373134b0326632681c9f326732693265326a30801820198c2cce2a4a,
  0x373537341e8634b334b234b41e87326b34b11ca0326c30814c521af93082198d198e171e49532a4b486245a728d145a642bc42bd42be40e440e340e5,
  0x1ca1326d326e1ca2326f1afa3083171f29a847b046d528d428d545a828d3444b444c264e40e63e82250a3e833e8121ec21ed39d439d239d321ee3733,
  0x3e843e873e853e86250b3e893e883c573c563c552394239323953c5839d639d53736204120401e8a34b934b834bb1e8934b71e8834b634b534bc34ba,
  0x1afe1afc308630851afd1722204230841ca3198f1afb17211720295846d645aa45a9276c28382837444e444d43bc42bf276b42c02650264f40e72651,
  0x1e8d34c11ca932711ca8327230881aff2ee42d95172447b142c140e840e92652250c3c5939d734bd34be1e8b34bf1ca61ca41ca732701ca530871723,
  0x31a9172529f629f746d745ab2839283a444f2771276e276d276f277040ea3e8b3e8a23963c5a3c5b239721f021ef20433737373937381e8c34c234c0,
  0x19992ee62eea19951998199619912ee71992199418232d9a182518262d97182418212d9618222d992d982ee5172817272c6f1726239821f1204421f2,
  0x1b0b30931b071b023092308930981b003095373b308c308f30971b08309a1b0530943096308d308a30901b041b03308e19902ee82ee9199718271993,
  0x34cc1cb51cb31cb01cad1cab32773279373a1cb41cb63278327332751cb132761caf1cb232741caa1cac1cb71cae30991b011b0a30911b06308b1b09,
  0x204d2047373d3740204b39e5373c204c37413743204a1e931e8e34c734c91e911e9234cd34c41e941e9034cf34cb34c834ca34ce34c634c534c31e8f,
  0x39da39e2204f21f839df21f321f439e421f721f939dc39e321fc21f639d839de39e639d939e139db39dd20452046204e373e20482399373f20493742,
  0x40ec3e8c3e9025103e8d3e8e250f250e250d25113e9125123e923e8f239b3c603c613c62239d3c5c239c3c5f3c5d3c5e239f239a239e21fb21fa21f5,
  0x42c442c5277942c7277242c642c32773277527762777277a277842c842c2277440ee40f540ef40f3265340f440eb40f140ed40f240f02654265540f6,
  0x172b40f74d0b37451cb81cb9172a42c9277b23a03744199a17292a2a499c499b29f8486347b246d8295946d928d645ac45ad445144504452283c283b,
  0x39e72051172e3e933c6323a3205034d01cbb199c172d46da283d277c265723a221fd37491e95327a1cba309b199b172c265623a13748374737461b0c,
  0x39e821fe39ec39e939eb39ea374c374b374a34d31e9934d11e971e981e9634d434d234d5327b1cbf1cbd1cbc1cbe4c43327c1b0d309c2eeb172f23a4,
  0x1731277d18281730495448eb486446dc46db295a45ae45b045af4453445442cc42ca42cb2659265840fa40f940f83e953e963e993e973e943e9823a5,
  0x19a22ef6199e2ef12eef199f2ef0309d2da018292d9f2d9b2d9c2d9e182b182a2da14b5e2d9d2da32da22cd12cd317322cd22cd02ccf2a52374d34d6,
  0x2efc2eed19ab19a12ef51cc02ef719a319a819ac2eff2ef22ef8199d19a419aa19a72ef419a019a52eee2efb2ef92ef319a62efd19a92f002efa2eec,
  0x30ab1b1a30b01b224a4230b630a930a630b130a21b0e1b131b1530b21b1130aa30b31b211b1f1b1c1b12309e1b1930a730a41b1d1b201b181b1e2efe,
  0x329132883292329a3287328b32801cce32902f3a30ad1b17328d30a11b231b101b141b0f1b161b1b30a3309f4b5930ae30b430a030af30ac30a830b5,
  0x32963297327f1cd2328932851ccf3284328e374e30a51ccc1cc532931ccd1cc81cc9327d1ccb1cd03294327e329b1cc1328c32951cd1329d32863282,
  0x1eaa34e734e034f334ed34e61ea91ea834db1e9d1ea734f734e334de34dc4c2132831cc332991cc232811cc61cca328a328f3298329c1cc41cc7329e,
  0x34d91eab34f434ee34dd34d81e9e1ea61e9b34e934ea34f834e21e9c34f11e9f34e134e41ea41ea234d734df1e9a34da34e834ec1ea31ea534f034f5,
  0x377c37673771206a3774374f37664a7f2061376520643769375b3773375a2057377a3777376f20593752375e1ea04cdf34f234ef34f61ea134eb34e5,
  0x3750205437583768205c37702063205b205f205a37793778375c377520523753375537613756375d377d37642056206b376c37602068377f3a0c3762,
  0x3a1021d03a213a0b4ba43751377e4a6137763754376d3759376b2066205520602058205e376a2069376e20672053375f3763378020623757377b3772,
  0x3a253a1439fa3a153a0d22063a1b220f3a0a3a203a073a0f39f639ee220122093a1a3a043a1320653a033a1c220a3a053a1d3a09220239f93a0e4c63,
  0x39f0220339fe39ff3a123a173a24220e22072205220d3a1e39f8220439f4220c4d14220b3a223a113a023a00220839fc39fd205d39ef3a233a1639f5,
  0x3c7e3c803c773c653c793c663c853c6723ab3c7623ad3c7d3c7323aa3c823c643c7a3c8b23b239f23a1939f339f721ff3a1f39fb3a0639f13a082200,
  0x3c843c693c713c7c23ae23b523a63c7b23a83a1823a93c6a3c7023b023a723b33c783c683c6e23af3c833c6f23ac3c743c8a3c7f3c6c3c6b3c6d3c72,
  0x25203eb73ebc3eb23ea63ea83ec53eaf3ebe3eab3eb13ead39ed3ec33ec42516251e3eb03eb43eb53ec23ec13c893c863c813c8723b13c8823b43c75,
  0x251b251c3ec73ea23ebd3eb93ea525153eca3ec625133eb63eae251d25193eb3251a3e9c3e9f3ea13eaa3ec93ea33ea03ea93a0125214b153ebb3e9d,
  0x4a39265a2660265c4109410340fc4107265f4a8c41054102410b25143e9b4c5e3ebf3ec83ecb3eba251825173ea73eac3e9e3eb83ea43ec0251f3e9a,
  0x4110410d410f2661411940fd2662265e265d4112411541184104410a41064100411326634116410c265b410142df40fb4111411740ff4108410e40fe,
  0x42ed42e142d12783278242ee42cf42e042e3411442d3278842db42e9278642e242ea277f42cd42e842e642ce278042da42d542dd42eb42de42d942ec,
  0x446a445c28442845446844694465445b4455445a446428432784277e283f278742d0284642d642d442e742dc42d242ef42d842e52781278542d742e4,
  0x28db45be45c545b545bd45c428d845bf45b745b445bc45b828da446645c02841283e44612840446028424462445d44564463445e445844594457445f,
  0x2960296246e52961295f46e646e446df46e246de46e046e8295b295e295c45bb28dd46e345ba45b245c145c345b345b945b128d928d745b645c228dc,
  0x486a486648654867486948f047bb29aa486847b447be47ba47b547c0446747b746dd47bc47bd47b647bf47b846e129ab47b947b329a9295d4a8e46e7,
  0x411a3ecc3c8c221222102211206c34f934fa1eac1cd3329f32a01b2419ad2cd449f349fd499f499e499d495548ed2a2c48f248ef48f148ec48ee2a2b,
  0x1cd632a532b532b332a41cd932aa1cd432a732a932ac30b91b261b271b2530b730b830ba19ae2f012f022f042f03173349db446b42f02789411b411c,
  0x35003503350534fc1eb01eb2350735041eb535011eb61cd51cd832a232b032ad1cd71cda32a132af32a632b41cdb32ab32ae32b232a832a332b132b6,
  0x20743788378a20713786206e3781378d3a2b20703784378f207335061eb41eb735021eae1eb334ff1eb1350a34fd34fe1eaf34fb350c350b35093508,
  0x221d3a3022152216221c3a343a27221b221a3a312217221822193a2a22133a2e3a283a323a2c206f378b37893787378c378e3783207237853782206d,
  0x3c9d3ca33cab3c923c9f3c983c9e23bf3c8f3ca73ca623ba3ca93c8e23b93c943c9c3c9323b73c963caa3c9523bc22143ca13cac3a2f3a333a293a26,
  0x3ed825293ed3252a3ecd23bd3ed4252c3ed63ed93edd3ee73ede3a2d252b3c9b3c973ca53c993c9123b63c9a3ca023b83ca23ca823be3ca423bb3c8d,
  0x3ee83ee3412625273ed025243ee925233ed23ee13ee43edb3ee23c903edc3eec25283eeb25263ee63ecf3ece3eea3ed725253edf3eda3ee03ee53ed5,
  0x278f42f2447c4128266726652666412c412f411d41304125411f4124412e41204121412b412a411e26684131412241274129412d2664252241234a6f,
  0x42fe2793430242fb2792278e42f4430142fc42fd278a430542f1430742f92790279142f7430642ff430442f84303278c430942f5430042fa42f342f6,
  0x45c9448044742849284744792848447044714481446c446d44724475447b446e3ed1284a4473430844824477446f447e447a447d44764478278d278b,
  0x47c247c647c346e946ec46ee2964296346ed46eb46ea28e045cc45cd45d245cb45d045ce28df45c845d3447f45c645d128e245cf28de45c728e145ca,
  0x173449de49dc49dd49c62a6b2a4d495649572a4c495848f648f42a2d48f348d348f5486b47c7486e47c1486c486d486f47c529ac29ad29ae47c429af,
  0x32be1cdc32c032b91b2930be30bf19b030bd17362a4e2669252e252d3eed221e2075379137921eb8350d30bc1b281735495947c8379032b832b730bb,
  0x351335193517351b1ebd350f351f1ebc351435201ebe351e1ebf350e1eba4d3332c11cdf1cde32bd32bf32c21ce032c41ce11cdd32bb32ba32c332bc,
  0x3a383a373a3c3a362226379f2077207637973798379c379a379337953796379b3799379d2078351d1ebb351235103518351c3511351535161eb9351a,
  0x23c43cad3cb523c223c03cb03caf3cb723c83cb33cb83cb923c63cae2225221f3a39222422223a3a3a3b2221222337943a352227222022283a3d4a0e,
  0x413e413223c73ef43ef33ef23ef625333ef0253225313ef7252f3ef83eef3ef125343ef925303ef53eee23c1379e4d383cb223c53cb43cb63cb123c3,
  0x448a448727964311430e430d2798430c2794279743102795430a430b266b41384134413c41364135413d266d266a413a41374133266c413b4139266e,
  0x29fa47cb47c929b147cc29b047ca46f0296546ef45d445d828e328e428e645db45d945d645d545dc45da45d728e54483430f44894488448544864484,
  0x3cbb3cbc3cbd3cba22293a3f37a137a2207a37a01ec01ec1182c45dd284b3a3e207935211b2a17372cd549a249a349a149a048f748f848f929f94870,
  0x3a443a4037a33a4637a537a43523352235241b2b30c0182d2a6c4871487229b2296646f145de45df284c4313431443122799266f26703efb3efc3efa,
  0x1b2c30c230c11b2e1b2d182e49a448fa29fb487347cd296746f245e0284d43164315413f3efe3efd3eff3cbf3cbe3cc03a473a413a42222a3a453a43,
  0x207b208637a8208720851ec635251ec735271ec235261ec51ec41eca1ec835281ec31ec91ce21ce81cea1ce61ce932c51cec1ce31ceb1ce41ce51ce7,
  0x222e223322383a4b207c207e208237a937ac37ab2088207d208137af37b1208337b437a637a737b337b237b0208437ae37ad208037aa3a4c223d207f,
  0x3cc523cd23ca3cc322313a4922363a4f3a513a4e3a523a4a2232223c3a54223b3a4d3a483a503a53222d222c2235223022392237223a222b222f223e,
  0x253f3f093f0f25353f073f0e25443f022543253c25403cc123d123d323d723c923d223d023cc23ce223423cb23d63cc223d43cc6253923cf3cc423d5,
  0x41474141414c41404148414b4145267625453f103f0c3f0825413f063f053f0325363f043f002542253a253d414a25373f013f0b25383f0d253e3f0a,
  0x279e432343214324431b27a1267b267a2675414e2679268041502672253b267c267f41444143267e414226744149414f2678267d2673414d26772671,
  0x28502851448b284e448c44984496449b448d431d279f431727a04325279d4327279c4318279b4319432041464326431f431a27a2431e279a4322431c,
  0x45e545ec45ea45e128ed28ec45e845e328ea45e2449128ee47d045eb28e745e44494449d4493449c449e284f449744994490448e4495448f4492449a,
  0x487429b547d247d147ce47cf29b429b32968296b46fa2969296d46f446f646f9296a46f846f746f3296c46f528e828eb28ef28e945ed45e645e945e7,
  0x27a327a43f113cc73a55352a3529182f49fe49df2a7e2a7849a649a52a51495b495a2a4f2a5048fc48fb48fd2a2e48fe487748784875487629fc4879,
  0x23d83cc93cc83a5a3a583a59223f208937b5352c352b1ecc32c72f0518312a872852432825473f1225463a563a571ecb1ced32c6183048ff45ee449f,
  0x4152415141533f1323d923da224022413a5b3a5d3a5c208a37b637b7352d32c81cee1cef2da445ef45f044a027a5432a432b4329432c268225482681,
  0x2093209437bc2092208d224637ba208b1ece1ecf1ed11ecd1ed01ed2352e32c932ca1cf11cf01b301b2f183249e045f144a144a244a3432d432e2683,
  0x3f15254a3f1925513f183f163ccc3cca23db23dd23dc3ccb3a5e2242224422432249224522472248208f2091209537b9208e208c209037b837bb2096,
  0x45f2285344a544a644a744a427a727a827aa27a6432f27a9415426844158415641574155254e254d25523f173f1a254b3f14254c2550254f25532549,
  0x1cf232cb1b311b3230c318344330415a2554415923de3a603a5f1ed31ed418332a53490029fe29fd487a47d429b647d3296e296f28f145f428f045f3,
  0x415c415b25563f1d3f1b25553f1c3f1e23df3ccd23e03a673a663a693a613a683a643a633a653a62209737bf209837bd209937be352f3530353132cc,
  0x3a6f37c6209a37c2209f209c37c937c320a137cb3533353635351ed535321ed6353432ce32cf32cd1b33183549c747d546fb45f745f545f845f627ab,
  0x224e3a743a6d3a6a224d3a6e3a6c3a7522503a70224c3a73225222513a713a72224a3a6b224b209b37c520a0209d37c837c037ca37c437c737c1209e,
  0x3f2f3f253f313f283f2d3f303f263f243f2b3f2e3f2c3f272558255b3cd13cd33cce3cd53cd63cd73cda3cd43ccf3cd93cd03cd83cd223e1224f3a76,
  0x26852688416541604167415e416441632689415f4162268a2687415d268641663f232557255c3f2a3f293f213f223f20255a255e3f1f255d255f2559,
  0x44af285644ae2857285544a944b244aa285844ad44b344a844b044b1285444ab44ac285944b54333433443314332433527ad27af27ac27ae43364161,
  0x2a00487e29ff487f47d629b847d729b929b7297046fd28f446fc297246fe2973297128f245fe28f745fa28f528f845fb28f345fd45f928f645fc44b4,
  0x1b341b3519b1183749e245ff285a4168256022531cf318362a7f49e149f449c849a749a849a92a6d495e495d495c495f487d490148814880487b487c,
  0x37cf20a337cd37d637d337da37d837cc37d137d937d737db37d537d437d037d2353d353c1ed835383539353a1ed73537353b1cf532d11cf432d01cf6,
  0x256725623f353f343f393f3823e423e223e523e33cdc3cdb3cdd3cde3a7f225722553a7d3a7c3a773a7b22543a7e3a793a7a3a78225620a420a237ce,
  0x44b627b327b0433727b2433827b427b1268b416d268d416e4169416b416f268e416c268c416a3f3225662564256525693f333f373f36256325682561,
  0x225820a518384902490348832a01488229ba47d847da47d9470446ff470347014700470228f94604460046014603460228fa285c44b9285b44b844b7,
  0x30c530c72f0c2f0a2f0b19b32f082f0619b419b22f092f072da5183b183c183d183a2da64d322ac5460522591cf7183929bb295328fb268f269023e6,
  0x353f1cf91d0032d71cfe32d41cf81cfb32d532d21cff32d832d61cfc1d011cfa32d932d31cfd1b3630c61b3b1b3c1b391b3e1b371b3a1b3d30c41b38,
  0x20a920ab20a737dd20aa20a837de20a637dc353e1edd1ee535431ee31ede1ee21edf35411ee71edb1ed91edc1ee61ee11ee835401ee01ee41eda3542,
  0x3f3d23ea23ed23e723ec23ee23e923ef23eb23e82260225e225c3a8022662261226322642265225a225b3a8322623a82225d22683a8122673a84225f,
  0x285f285d4173433927b7285e27b927b827ba27b5433a27b626954172269641712693256e4170269126923f3a26943f3b3f3c256b256d3f3e256a256c,
  0x19b819b52f0e2f102f0d19b72f112f0f18412dab18422da9184318402da82dac2da72daa2cd92cd62cd82cd71d022cda183f2a2f2a30470528fd28fc,
  0x1ee932e032e532de1d051d0332db32df1d0432e432e232dd32dc32e132e332da30cb354a1b4030cf1b3f30d030ce30cc1b421b4130ca30cd30c919b6,
  0x3a8b20ae37e437e937df37ea37e137eb20ac37e737e837e220af1eeb37e337e6417437e520ad35473549354830c8354635441eea354c354b3545354d,
  0x257037e03f403f423f4144ba25713f443ce63cdf3ce23ce73ce13ce323f23ce43ce03ce83ce523f023f1226a3a893a8a22693a883a853a873a8c3a86,
  0x32e832e71d071d081b431b4418442a02488447db47dd47dc470647074606460744bd44bc44bb27bb433b41774176269741753f432572256f3f3f3f45,
  0x3f4c3ce93ceb23f423f523f323f63cec3cea3a8e3a8d226b226c226d389f20b137ed20b037ef37ec37f037ee3550354f1eec354e355235511d0632e6,
  0x44be44c044bf27bc433d43414343434027bd434227be433e433c433f41782698417a4179417c417b25753f48257425733f473f463f4b25763f4a3f49,
  0x1eed1b4518462975226e19b918452a8049c949622a6e2a5449604961490429bc47de470847092974470b470a28fe460844c128ff46092861286044c2,
  0x355c1eee355435563555355e1ef23553355b355a1ef3355d1ef11eef35581ef032ea1d0a1d0c32eb1d0d1d091d0b4b8d32e930d130d219ba286220b2,
  0x380220b520b7380137f538033804380620b420b337fa20bb20b937f720b837f837f220b620ba37fd380537fe37f4380037f137f937fb37fc35593557,
  0x3a9d3aa9227b3aab22763a99227a3a8f3a9a227c2273227e227422724c073a92227d2271226f3aa122793a943aad3aa43a913a983d0f37ff37f637f3,
  0x3d0a3d02240023fc3cf13cf923f73cef3aa83aa33aa03a9b3a9c3a9f3a933a9522773aa63aa23a9e3a962275227f22703aac3aa53aaa3a9022783aa7,
  0x3cee3cfc3d013d043cf23d0d23fe3cf03cf73d0823fa3cfa23fb3d003cf323fd24013cfe3cf53d073d0e3d053d033d0b3d0623f93a973cff23f83cfb,
  0x3f5a418e3f5e3f643f5f25813f6c25773f4f3f4e3f5c257d3f50257f25784a0d25793f523f6a3f6d257e2583257b3cf83cf43d0c23ff3d093cf63ced,
  0x4193269b41943f5425823f5b3cfd257a3f573f5d3f673f61257c3f6b3f653f553f663f594a363f513f563f583f633f6925803f683f4d3f533f603f62,
  0x4180417e418f418626a226a827c641a426a6419d4192418826a34182418c418d419e419f41a1417f418126a14196418941a2419841a0269f41a34190,
  0x27c527c3434e4349418a4a404cae4b844185419a4184269a419b4195269c269d26a7418b26a0419c419927c1417d26a4419141974187269e26a52699,
  0x27c2435b27ca435227c84355436127c4434743604c9f435e4351435f434c27c927cb4364434b43574348435827cc43594350434f435a436327bf4354,
  0x44cd44c844c7286c44d1286b286d286544cf286344c544d5435344cb44d344c4286444c944d04cf7434527c0436227c7434a435d41834356435c434d,
  0x2909461246162904460b461b2903460d461d44c644c344d9286744d644d4286a43462868286944cc461444d844ca44ce44db44d744da2866434444d2,
  0x472647184ce34c7546184611290d461f4615290b4619290829002902460a29062905460e4613290a290c2907461a46174b0b461e2901460f460c461c,
  0x4b7447162976471d47134711470d471e472747144710471c47174725470c47224720471b4728297747194723471229784724470e471f46104721471a,
  0x488d488c488a488e488b2a034cac4ca947ea47df47e347e447e029c047e629c147e847e129bf29be29c247eb47e529bd47e929c347e747e24715470f,
  0x2a7949cc49cd49ca49ae2a6f49ad2a7049ac49aa49ab49632a55496549642a332a3149052a3249094907490849062a052a0448864889488548884887,
  0x20c020c120bf380a20bd20c23808380920be1ef4356135601d0e1b4619bc46203f6e3807355f19bb49ff49f549f749f62a882a822a812a834bce49cb,
  0x4368436641ab41a741ad41a526a941a941a8436a41aa41ac25853f723f7125843f6f3f702404240324062407240524023aae3ab03aaf3ab1228020bc,
  0x2cdd2c7019bd47ec47ed47ee29c42979472a472b4729290e46224621286f2871286e44dd44dc44de287041a627cf27ce27cd436727d0436527d14369,
  0x1b4730d430d81b4a1b491b4830d719c12f1619c219be19bf2f132f1419c02f152f12184718492dad2daf18482db0184b184a2dae2cdc2cde2cdb1738,
  0x380c20c635621ef81efc1efb1ef61efa1ef720ca35651ef9356635631efd35641ef51d141d101d0f1d1132ed1d161d1332ec1d121d1530d330d630d5,
  0x41ae26ab26aa4d2b3f733f743d113d102409240a240822813ab5228322823ab33ab23ab420c420c920c520c3380e380d380b20c820c720cb380f3810,
  0x3f75240c3ab62284240b228522872286381220d020cf20cd20ce3813381120cc1efe356732ee1d1719c327d32ac6290f44df27d2436c436b436d26ac,
  0x22893ab7228a3ab92288228b3aba20d23814381520d11eff1f0019c4496629102872462344e3287644e52873287544e1287444e444e027d426ad41af,
  0x44e8287744e644e7436e436f27d6437127d54372437026b026b241b126af41b226b326ae26b141b025893f77258825873f7625863f78240d3d123ab8,
  0x3f793d13228c19c549e349af2a57496949672a5849682a56488f2a072a0647f029c629c547ef29c7297a472d472c4626462529114624462729124628,
  0x3d1b3d173d193d1c3d183d1d3d163d14240e3d1a3d153abd3abc228e228d3abb3abe38173818381635681b4c2a3426b61b4b2913258a19c626b526b4,
  0x462944ea287a44e944ec44ee44eb287944f044ed287844ef437427d7437643774375437341b326b741b441b5258d3f7b258b258c3f7a3f7c4aea240f,
  0x462e462d462c291444f244f444f144f34378437927d83f7d3f7e3d1e3d1f20d31b4d2a7a496a2a59490b490a2a082a0947f14b81472f472e462a462b,
  0x228f3abf3ac13ac02294229220d6381920d520d435691f041f031b50490c29c847314730291544f5287b41b724101b4f437a41b61b4e496b489047f2,
  0x4380437b26ba26bd26b926bb41b841ba26b841b926bc258f3f823f833f863f8126be258e3f843f7f3f8025903f85241224113d204bc9229122932290,
  0x4891489229c929ca47f3473447334732473529164631462f2918463029174632288044f844f744f6287d287f287c287e437d437e42ae27d9437f437c,
  0x47f5297b4737473647f646334636463429194635288144f927da25913f87241424133d223d213ac2381a1b5149e549e449b02a712a5a2a354a5f2a0a,
  0x259224183f883d25241624153d233d242298229722953f893ac43ac3229620db20d920dc381b20d820da20d7356a32ef1d181b531b5249e6489347f4,
  0x438543864389438a43872885438843834382438441be26c041bd438141bb26c341bc26c126c226c425953f8d3f8c3f8e3f8b259325943f8a26bf2417,
  0x49e749b12a722a364895473a47f729cb47f82a0b4894473d297c297d47384739473b473c291b46374638291a463944fa28832882288444fb44fc27db,
  0x24193d2d3d2a3d2b3d293ac8229b22993ac6229a3ac73ac520dd20de1d1949e8297e463b463a28864bf7438c438d41bf3d263d271b55438b356b1b54,
  0x41c641c741c841c241c341c526c6259825963f8f2599259d3f973f993f96259b3f933f92259c259a25973f913f943f903f9a3f983f953d2e3d283d2c,
  0x450244fd2887450044fe450344ff45054506450445014399438e27dc27dd4397439643984395438f4392439343914394439026c741c441c026c541c1,
  0x47f94746298147432982473f473e47402980474547474741297f474247444644463e46404645464246434646463f46474641463c291d291c463d4648,
  0x2a5b496c2a382a37490e2a39490d2a0c48984897489e489f489a48962a0d4899489c489d489b47fb29cc47fc29cd47fd47fe29ce480029cf47fa47ff,
  0x4748474a46492888450741ca439a26c941cc41c926c8259e41cb3f9b3d2f241b241a3ac93aca1d1a4a032a8b49f849f949eb49ea2a7c49e92a7b49ce,
  0x26ca41ce41cf41d041cd3f9e3f9f3fa025a0259f26cb3f9c3f9d3d31241c3d30229c32f045081d1b2a73496d2a3b2a3a2a0e2a3c48a029d048014749,
  0x1d1c49ec2a742a5c49114910490f2a0f48a14804480348054802474c474d474b464c291e464d464a464b4509288a450b450a2889439d439b439c439e,
  0x29d2288b288c288d450f4510450e439f3fa125a225a33fa2241e241d3d333d321d1e48a34806464e450d41d11d1d2a8c32f149fa48a2450c26cc25a1,
  0x41d841d241d641de41d541d741dc25a43fa73fa83fa43fa53fa925a53fac3faa3fa33fa63fab3d353d343d363acb1f05496e2a5d48a448a529d14807,
  0x451c451b45174519451643ab27de27e127df27e043a143a443a643a743a943a543aa43a243a343a041dd41d941da26cd41db41df41d443a841d34c4f,
  0x4650464f291f29204654465c46534655465e46514652465a2922465f465b46582921465d46574518288e288f289145114512451a4513451528924514,
  0x48b02a1129d3480b4808480e480d29d4480f480c48104809480a475847592983475247562984474e475a474f47554757475128904753475046564659,
  0x4973491949132a3e2a3f49182a3d49124914491b4916491a491749152a1048a748a648a948ac475448a82a1248b148ad2a1348aa48ae48b248af48ab,
  0x3fb124203d39241f24213d383d373acd3acc229d3ace381c1f064a044a002a852a8449d249cf49d049d149b349b449b249704971496f497249742a5e,
  0x26d041e026cf41e841e241eb41e341e626d341ea41e741e126ce41e426d241e925a73fb63fb225a63fb73fb825a83fb33fb03faf3fad3fb53fae3fb4,
  0x45244528451e45272893451f45254522452043b543b743b643ad43ba27e343b843bb27e243b343b943af4a7443ac43b243b443b143b043bd41e526d1,
  0x46664677466b4673467646674660466e466d467229254665466f46752927466c29264670467943ae2924289545292894451d4521452b4523452a4526,
  0x4771475d476d476a47684763475b476c475e476547624769475c4760476747704764475f4761466a4669466229234664467846684671466346744661,
  0x482448b74816482148154819481a29d74814476e48184813481b481f481e29d848114812481c29d648254827482229d5482348204766476f476b4772,
  0x4925492e492a492048bc492d49262a404922491f4929492448bb48b548c248b948b348b648bd48be2a1548bf48c12a1448b448ba48b84817481d4826,
  0x49b949ba49b749b849b649b5497d49774979497a498049784975497c497b497e4976497f491c2a602a5f4921491d492348c0492b492c49274928491e,
  0x292a2928467b452c43c0452d27e443be43bf41ec41ee41ed3fb9229e3acf1f082a622a61482829851f072a8e4a052a8d2a8949fb49ee49ed49d349d4,
  0x20e02a7543c220df492f467c25aa24221f0a4a0148c32986292b43c141ef41f025a93d3a1f094a0849bb49812a4129d948294774477547732929467a,
  0x49bc2a424932493148c429da482b482c482a298747784779477647772896452e27e627e827e727e943c326d441f241f126d53fba20e1493027e525ab,
  0x43c743c822a149824934482d482f29db482e4531289722a041f43fbc3fbb229f49d649bd2a634933452f453043c53ad0467d43c441f3381d2a8649d5,
  0x4a0a49ef49be4983493848c84680467f27ea41f5242349354936493748c52a1648c648c74830477a2988477b467e28984533453445354536453243c6,
  0x493d493c2a1748c92a1829de29dd48324833298a298b477d2989477e477f29dc477c4780468446834682453843c925ad493948314681453727eb2424,
  0x13b913b713aa39062c322bcc2bca49d748cb43ca26d74a0b48ca2a1948344781289f26d64a0949c049c149c249bf2a644986498549842a65493a493b,
  0x13b313b213b113af13ae13ad13bc14071406140914081405140413dc13db13d813d713d413d313d013cf13cc13cb13c813c713c413c313c013bf13bb,
  0x140d13ed13be13bd2bf813ec1445144013eb2bf913a9144b144a1449143f1420141f141e141d141c140c140b140a13e213e113e013df13de13dd13b4,
  0x14b214b114b014af14ae14ad14ac14ab14aa144613a814141415141313a613a71493149214911490148f148e148d148c148b148a143c13a4140e13a1,
  0x14cc14cb14ca14c914c814c714c614c514c414022ad4143d2ad314c314c214c114c014bf14be14bd14bc14bb14ba14b914b814b714b614b514b414b3,
  0x2bc52bc74a3414412bf714012bf614441443142113c213b513c114dd14dc14db14da14d914d814d714d614d514d414d314d214d114d014cf14ce14cd,
  0x4ad14c4e4b664ac14cc54a674a994abc4a954c2f4baa4a374cd64a704b404a6b4a354a634a5a4c204c364a574a554a584a694a494b8e4b3b4b764bba,
  0x4b1c4b1a4b1d4b6b4bbc4a9b4ace4aa14cca4b214d224b324b144b114aaa4aa94c724afc4afa4bc44d254b7a4a4b4af14b054ae04acf4beb4ac94b17,
  0x4a4d4c514c3f4b7f4b7d4b5d4c254a684b5c4b8a4b564bf04b524d174b514b494b454cf44b3e4a414cef4a6d4c374b304adb4ced4b924bdf4b204bc5,
  0x4a654d1e4ae34a6c4bf14c504be64be54bf34be94be84bd94c6c4cb74bc84bbe4abf4bb44bf64bb54cd94bae4c334b974ad34b8c4d364b2e4a6a4a53,
  0x4adc4c814c824a964abe4a384bad4c834c684a944c3c4c704c664c474c454c4b4a434a714c3a4c354bfd4a814c274c244c174a514c124c0c4be34c09,
  0x4a474c494b5b4c4a4c404cbd4b654ca24ade4bf94c9d4afd4ca04b0a4c964cc94c014af34c484ce84c874c864c804c7d4c884c844c7f4bca4c5c4c73,
  0x4bed4d164d154cfc4cfe4aff4a524a7a4ce74ce94bd44ca34cd44ccb4bd54ca44bfa4d264cd04bc04cce4b274a624b9e4ccf4b9d4c5b4cb24a3e4bdb,
  0x4c564b1e4c554c0a4b194a4f4c544b184af84a4a4ac84c414b4a4a8f4cc64d0d4d0e4b7c4d094c894d354b3f4d3b4ab24bcb4caf4d2d4bf44b894d1c,
  0x4a914aad4c1b4b854b8f4a3f4ad24a484d214d204cbe4cc04aa64bf24b6e4d3d4a504b9f4b384d312bcd4d414b8b4b2d4d134c5f4ba74c5d4b824b23,
  0x4ba64b774b094bb14c2c4c7a4d444c024cf34cdb4cf64cec4ca64bb04cea4aef4d344c644c0f]

/-- `index_pointer_big5_1` (lib/whatwg/encoding/indexes_pointer.cpp:6), 14659 entries. -/
def ptr1Big5 : Table := ⟨16, 14659, ptr1Big5Data⟩

end Verif.Model.Tables
