import Verif.Model.Table
/-
Index tables of the Japanese encodings.
Transcribed by a script; see Verif.Model.Table for the packing.
-/
namespace Verif.Model.Tables
open Verif.Model.Table

set_option maxRecDepth 100000

/-- Rows of `index_code_point_jis0208`. -/
def cpJis0208Data : Nat := pack 480 [
  0x04edd030030309e0309d030fe030fd0ff3f0ffe30ff3e000a80ff40000b40309c0309b0ff010ff1f0ff1b0ff1a030fb0ff0e0ff0c030020300103000,
  0x0ff5b0ff3d0ff3b03015030140ff090ff080201d0201c020190201802025020260ff5c022250ff5e0ff3c0ff0f0201002015030fc030070300603005,
  0x022340221e02267022660ff1e0ff1c022600ff1d000f7000d7000b10ff0d0ff0b03011030100300f0300e0300d0300c0300b0300a03009030080ff5d,
  0x025a1025c6025c7025ce025cf025cb0260502606000a70ff200ff0a0ff060ff030ff050ffe10ffe00ff040ffe5021030203302032000b00264002642,
  0x02208fffffffffffffffffffffffffffffffffffffffffffffffffffffff0301302193021910219002192030120203b025bc025bd025b2025b3025a0,
  0xffffffffff0220302200021d4021d20ffe20222802227ffffffffffffffffffffffffffffffffffffffff022290222a022830228202287022860220b,
  0x0222c0222b022350221d0223d0221a0226b0226a0225202261022070220202312022a502220fffffffffffffffffffffffffffffffffffffffffffff,
  0xffffffffffffffffffff025efffffffffffffffffffff000b602021020200266a0266d0266f020300212bfffffffffffffffffffffffffffffffffff,
  0xfffffffffffffff0ff190ff180ff170ff160ff150ff140ff130ff120ff110ff10fffffffffffffffffffffffffffffffffffffffffffffffffffffff,
  0x0ff340ff330ff320ff310ff300ff2f0ff2e0ff2d0ff2c0ff2b0ff2a0ff290ff280ff270ff260ff250ff240ff230ff220ff21ffffffffffffffffffff,
  0x0ff4c0ff4b0ff4a0ff490ff480ff470ff460ff450ff440ff430ff420ff41ffffffffffffffffffffffffffffff0ff3a0ff390ff380ff370ff360ff35,
  0x030460304503044030430304203041ffffffffffffffffffff0ff5a0ff590ff580ff570ff560ff550ff540ff530ff520ff510ff500ff4f0ff4e0ff4d,
  0x0305e0305d0305c0305b0305a030590305803057030560305503054030530305203051030500304f0304e0304d0304c0304b0304a030490304803047,
  0x030760307503074030730307203071030700306f0306e0306d0306c0306b0306a030690306803067030660306503064030630306203061030600305f,
  0x0308e0308d0308c0308b0308a030890308803087030860308503084030830308203081030800307f0307e0307d0307c0307b0307a030790307803077,
  0x030a8030a7030a6030a5030a4030a3030a2030a1fffffffffffffffffffffffffffffffffffffffffffffffffffffff030930309203091030900308f,
  0x030c0030bf030be030bd030bc030bb030ba030b9030b8030b7030b6030b5030b4030b3030b2030b1030b0030af030ae030ad030ac030ab030aa030a9,
  0x030d8030d7030d6030d5030d4030d3030d2030d1030d0030cf030ce030cd030cc030cb030ca030c9030c8030c7030c6030c5030c4030c3030c2030c1,
  0x030f0030ef030ee030ed030ec030eb030ea030e9030e8030e7030e6030e5030e4030e3030e2030e1030e0030df030de030dd030dc030db030da030d9,
  0x0039a003990039800397003960039500394003930039200391ffffffffffffffffffffffffffffffffffffffff030f6030f5030f4030f3030f2030f1,
  0x003b2003b1ffffffffffffffffffffffffffffffffffffffff003a9003a8003a7003a6003a5003a4003a3003a1003a00039f0039e0039d0039c0039b,
  0xffffffffff003c9003c8003c7003c6003c5003c4003c3003c1003c0003bf003be003bd003bc003bb003ba003b9003b8003b7003b6003b5003b4003b3,
  0xffffffffffffffffffffffffffffffffffffffffffffffffffffffffffffffffffffffffffffffffffffffffffffffffffffffffffffffffffffffff,
  0x0041a0041900418004170041600401004150041400413004120041100410ffffffffffffffffffffffffffffffffffffffffffffffffffffffffffff,
  0xfffffffffffffff0042f0042e0042d0042c0042b0042a004290042800427004260042500424004230042200421004200041f0041e0041d0041c0041b,
  0x0043a0043900438004370043600451004350043400433004320043100430ffffffffffffffffffffffffffffffffffffffffffffffffffffffffffff,
  0xfffffffffffffff0044f0044e0044d0044c0044b0044a004490044800447004460044500444004430044200441004400043f0043e0043d0043c0043b,
  0x0250f02503025010253c02534025240252c0251c0251402518025100250c0250202500ffffffffffffffffffffffffffffffffffffffffffffffffff,
  0xffffffffffffffffffffffffffffff025420253802525025300251d0253f02537025280252f025200254b0253b0252b0253302523025170251b02513,
  0xffffffffffffffffffffffffffffffffffffffffffffffffffffffffffffffffffffffffffffffffffffffffffffffffffffffffffffffffffffffff,
  0xffffffffffffffffffffffffffffffffffffffffffffffffffffffffffffffffffffffffffffffffffffffffffffffffffffffffffffffffffffffff,
  0xffffffffffffffffffffffffffffffffffffffffffffffffffffffffffffffffffffffffffffffffffffffffffffffffffffffffffffffffffffffff,
  0xffffffffffffffffffffffffffffffffffffffffffffffffffffffffffffffffffffffffffffffffffffffffffffffffffffffffffffffffffffffff,
  0xffffffffffffffffffffffffffffffffffffffffffffffffffffffffffffffffffffffffffffffffffffffffffffffffffffffffffffffffffffffff,
  0xffffffffffffffffffffffffffffffffffffffffffffffffffffffffffffffffffffffffffffffffffffffffffffffffffffffffffffffffffffffff,
  0xffffffffffffffffffffffffffffffffffffffffffffffffffffffffffffffffffffffffffffffffffffffffffffffffffffffffffffffffffffffff,
  0xffffffffffffffffffffffffffffffffffffffffffffffffffffffffffffffffffffffffffffffffffffffffffffffffffffffffffffffffffffffff,
  0xffffffffffffffffffffffffffffffffffffffffffffffffffffffffffffffffffffffffffffffffffffffffffffffffffffffffffffffffffffffff,
  0xffffffffffffffffffffffffffffffffffffffffffffffffffffffffffffffffffffffffffffffffffffffffffffffffffffffffffffffffffffffff,
  0xffffffffffffffffffffffffffffffffffffffffffffffffffffffffffffffffffffffffffffffffffffffffffffffffffffffffffffffffffffffff,
  0xffffffffffffffffffffffffffffffffffffffffffffffffffffffffffffffffffffffffffffffffffffffffffffffffffffffffffffffffffffffff,
  0xffffffffffffffffffffffffffffffffffffffffffffffffffffffffffffffffffffffffffffffffffffffffffffffffffffffffffffffffffffffff,
  0xffffffffffffffffffffffffffffffffffffffffffffffffffffffffffffffffffffffffffffffffffffffffffffffffffffffffffffffffffffffff,
  0xffffffffffffffffffffffffffffffffffffffffffffffffffffffffffffffffffffffffffffffffffffffffffffffffffffffffffffffffffffffff,
  0xffffffffffffffffffffffffffffffffffffffffffffffffffffffffffffffffffffffffffffffffffffffffffffffffffffffffffffffffffffffff,
  0xffffffffffffffffffffffffffffffffffffffffffffffffffffffffffffffffffffffffffffffffffffffffffffffffffffffffffffffffffffffff,
  0xffffffffffffffffffffffffffffffffffffffffffffffffffffffffffffffffffffffffffffffffffffffffffffffffffffffffffffffffffffffff,
  0x02163021620216102160024730247202471024700246f0246e0246d0246c0246b0246a02469024680246702466024650246402463024620246102460,
  0x0339c0333b0334a0332b03323033260330d0335703351033360330303327033180334d033220331403349fffff021690216802167021660216502164,
  0x032a7032a6032a5032a402121033cd021160301f0301d0337bffffffffffffffffffffffffffffffffffffffff033a1033c40338f0338e0339e0339d,
  0xffffffffffffffffffff0222a0222902235022bf0221f02220022a50221a022110222e0222b02261022520337c0337d0337e032390323203231032a8,
  0xffffffffffffffffffffffffffffffffffffffffffffffffffffffffffffffffffffffffffffffffffffffffffffffffffffffffffffffffffffffff,
  0xffffffffffffffffffffffffffffffffffffffffffffffffffffffffffffffffffffffffffffffffffffffffffffffffffffffffffffffffffffffff,
  0xffffffffffffffffffffffffffffffffffffffffffffffffffffffffffffffffffffffffffffffffffffffffffffffffffffffffffffffffffffffff,
  0xffffffffffffffffffffffffffffffffffffffffffffffffffffffffffffffffffffffffffffffffffffffffffffffffffffffffffffffffffffffff,
  0xffffffffffffffffffffffffffffffffffffffffffffffffffffffffffffffffffffffffffffffffffffffffffffffffffffffffffffffffffffffff,
  0xffffffffffffffffffffffffffffffffffffffffffffffffffffffffffffffffffffffffffffffffffffffffffffffffffffffffffffffffffffffff,
  0xffffffffffffffffffffffffffffffffffffffffffffffffffffffffffffffffffffffffffffffffffffffffffffffffffffffffffffffffffffffff,
  0x0611b054c00963f05a030551604e9cffffffffffffffffffffffffffffffffffffffffffffffffffffffffffffffffffffffffffffffffffffffffff,
  0x09b8e07dbe07d62098f40867b059d005b9b06271065a1057270689309bf5082a608466065ed06e25063e1060aa07a500831c0847509022059f606328,
  0x061700610f060df05c0905a01059d405937056f20504904f9d04f4d04f0a04ee50674f0978d095c706848066970630905eb505b89088b707c9f06216,
  0x06ea2058f104e00078ef090c1080b2057df04ea504e950533b0907a0905508b02088630840e080c307def07dad079fb075700754f070ba0690506613,
  0x070cf05b87053f30540b097fb096a009670096620852d080e406deb098f205f15059fb056e0054e1054bd053700514109c2f0828b0832807a3209038,
  0x096f20904b04e91056420958f074dc06d66053a9059e509c3b0851a06b1d055040561806e26081fc0789304e1107aba09d5c0536f096e808fc207fbd,
  0x099c5076ca075ab06db2092ed08a600885b082f10983407a4e076c80745b06d2906cf306c3806804066f30662005f7105b30055b6053e10990c0834f,
  0x0827607e010733f071d507159071140708e06f1406cbf063f4063a90602805ef605bb405944058300571205186053ad0698e095b208d8a08b01060a6,
  0x09d0e09d2c0895607fc10738b06bb406b2706a2a065fa062bc05fdc05f80059650592e051f90752506c5a065bc0586909d1b0925b0906008597082d1,
  0x04f7304fa104f3d04f5504eee0531604e0b097f307a4f06e29060690537804ffa04e590726106876081c6061b605c4b051040837b06c9605ca109ec4,
  0x083ef0837708304082db082b107b8707a3c079be0798d073c20706b06cb306b4c067b60679c06687079d105be105bb605ac10590f05609053ef052a0,
  0x089e304f1a04ecb099d509913096c508cc0086fe082bd081e50753b072590621105ce804fc40868a0971e0904e08fe608ca80562908ab208766083d3,
  0x0968e0958b087f9082a507d75076860754c0707006d77068b00666609b4106539062d006212061d006062060940602a05feb05efb058ca0584a056de,
  0x052830920e086ce067ff057a3086d9099a806d6c09ab8093a708a7208857084cb0788d06daf069820616805d1605bb3054b305916052be051f108c9d,
  0x0984e0984d0697d05cb305b660976909694095a3090ed08f0308d6b089d20899a07a6b078ba0737206bbb068380683c064b9062e105ed30540405687,
  0x0682a0978406a3a0691b053f609c3904e1408f44089100845b06ed106e0706d3b062ec060700559d0527206f5f09c0d068b606a7f06a2b07b200639b,
  0x0582a0559a05dfb052e7052d80520a05bd2051a004f8304e7e074e6082c50520807ca508431083050682209d280565b0938c091dc084b207ac30515c,
  0x076e307518074b006f4506f9706f2206c5706b5306b3e068fa06853067d106562063db061be061630611f060a305e7905e7205bdb05b9805b8c059e6,
  0x0542b04e380821809928097d309665095a20959109593094510908408cab08acc089b30839e082660809d07ff007f3607de907c2107ba107aff0770b,
  0x05e7e05e0c05c9005bc405b0905947057fa056680559c0537104f0e04f01098580985409811096c108d0b07feb05ca90773c0764c073a905dcc05cb8,
  0x08ecc08d7708cb408a180898f05fbd07d0007a0005b63079480757f06c7d06c1706bc505e3006a5f068c4068cb0671f065e2065d70673a063ee05fcc,
  0x05409097a0083ca063ac08b7008abc087fb07fa90794707591072a006b3a064ec062800622f05b9c05993051000507d04e8009b3c09a0e098e208f1d,
  0x0673d065510602505f1305bae05438053ca04f1104ec704e4504e1809006086500811a05ba20537409ecd067750782708a7006a5806854055ab05403,
  0x092f808ddd08a310865a06e2006319062e0062d205de805c45053bb0725b065e707d6607cfe07d1a07b0807aae07a76074030707806ce306c7206c42,
  0x060500602f05f4a05f3705ce105883055ac053eb0537f0532105354051f60517107af605147050d104fa004f9b04eac04eab04ea809b5a079a606f01,
  0x066f205c400696d0668105c2d051dd04ef009a5a09957097ff093e1090f70854e0820808105080f8077ef072ed072c206cc106a4b065590631f0606d,
  0x091d108fd108b390895f0887f083cc082b907dca07b4b079bd079810743406b3d06b23065a40932605dfe05747052e4050c507c81068500738906975,
  0x04e32096850904705bd30507607a7a055b00865e0611a05177099d2099c8099c608eaf082e6077e907396072d70533a053e50503604e5d092800541f,
  0x090e108ecd07fa408a13085ab0541b052f20936c0685107e700681707c82096880718a07aaa08f610977406c9307a9f0639805c4805c51091e706adb,
  0x06e13068420666f0656c0643a063b2061a906167061760607505f8405f62059510578b073ea0572d055530514405211050be04fc2079410888805366,
  0x0969906fc0064830621f0528709be808fce082b809d8f0981a08efd08b6608a6308a08086cd0834a0830e07f6b07e4b07d9907d4c07cfb07a3d07566,
  0x061f8061b205efa05acc058050570f055a705263052380517c05065050260503904ef60670808a230884007d5007a7406f5406c7a06b200509106841,
  0x0539f0514309e7809a13098550967a093750906308ed208ce208b190898b080a90770c07d790786f078140732e072ac0727d06a290691c06372062f3,
  0x065450623805f2705eab05df105b64059d1056fa0547c053e40500b04e4e0965008afa08a000823707d43073fe0738406e9006e1b05f2605e7b053b3,
  0x05fa105f8c05a2f0543e054490534804f0d04e9204e9409f1309867096c70923708de808a870864e083f0080e1080a1088b407cca072d006e56067af,
  0x05411053e30539a052fe052b90529f0516c05149050160501904faf04f7c04ea409bc904e5e0919008b7708aa408a9e078810745a06a8e068a70609f,
  0x06643066020653b063a7062d8062970614c0605205f1805eb705e9a05e8305e7805df705de705de505b8f05b5d05b540597d057a205751055890540e,
  0x08154080b1080af080030801507db107d5e07d1807d0507ce007a3f0786c076870753206e9d06e2f06d6906d2a06c5f069cb06897068210676d066f4,
  0x058d505408053f7052ab0525b09d3b09ad809999098050964d095a4092fc0783f0927109175090ca08cfc08ca208b1b088610884c083520822a0818f,
  0x0980306b6408fbc072db09aa8060da05ffd075110817006f090734409ed209d600917707a40056fd0544a0523b0514b09eb908f5f08c6a06fe0062f7,
  0x067fb05dee05de605d6f05506053c904f5004e9b09b420826e07d3a075d506df7068b106839066060660f061c70606805a5a058be05764056f004eca,
  0x0707d06e0806b730683d063a10624d05f6905bb0059bb0585e054c9067000518d050ac050b50632b05ea705750088df0939608a50078020747306c99,
  0x05d0e054b2080b40698a0583a0962a05742051b408ca107f6a0675005728052640969b08f09088c1083dc07d300658e0796d078260781507280091c7,
  0x064e6064ae062f605bdf052370518a0531907b3909bad0685c0932f07d2207b5607a84067f506714066280643e0548b0524a04f5c09dfa07895057fc,
  0x07e8207b9707523073ca071e60685f0656306492060e805c71053c20509804e0906652076bf09bab093060634c09bd607690096d1085a906bba0672d,
  0x05e0205c4d05b50059ff059c9059cb058eb056db055e3053f2053f80523a04f7f04f3a04ed404ed506b8b066ab065ac099100917808cdb08b8308695,
  0x08a5e08996081f308102080a207d2b07d1907cf8079c1079490734506c0f06b7b06b620679d065e8065bd065af05b5c0652f063070601d05fd705e2b,
  0x075d4074bd0723e06cbb06ecb06b2106642063010614805bfa05b570515004f8d04f3c04e8b06b6f098fc096cc08cdc08cc708aee08a8c08a6608a69,
  0x06e7f0608905ba405ac905931057f7053f104e03096eb05b8d08ef807afa09d2b08b5805f0f09e7f06c5008f9e08494081ea080330800c0793a078c1,
  0x08eca08b1d0800507d170793e0716e0659c08d660636805c04051990820e07e1e0854a05c610829d067f40507207be00850005b9f08cea075be06f06,
  0x073e0072e906b8a067310624b05b88053d604e3b060f905f3105bc2082e50932b091c80914c072350707c0675305c3a052fa0501f090aa086c70906e,
  0x079c006d32062fe0610104fee05dde05c3105b9705468053ce056da0970007dac06a390638805bff0546a053d705112099960915208da30816b07a2e,
  0x067d40620e05f93053410514504f4f04ec00919c096c60916c0914b0903108f2f08e7408b900897208846084900821f081ed07fd207e4d07d42079cb,
  0x0821c07ae3077ac0662505cfb04fca08ff008853051fa0719f0587e07c9b07e2e0795d06dd105bbf05919053d409283091cd07e260736306e0b06c41,
  0x07f7207dd205eb606e1a066d906691062400521d051e609806091870907505de107d14076fe06f6406e9606df306b890696f065ec05faa051c6099ff,
  0x059be05968056170553105546054e8053ec0534705320052dd0511f050b709664092e40605505f9005e8f05973053d9052a908af8085f7085af066f8,
  0x06cbc06a3506a1f068a20677e066760662d0660c06607063770638c062db062840627f05f7005ee005e8a05e8405c1a05c1105c0f05c0605bb505a3c,
  0x08a3c08a1f088f30885d085490848b083d60809607d3907ca707b1107ae0079f007965079010785d07701075c707167071260713c06e5806e0906d88,
  0x06761064fe060c505e3805b22058cc05834057ce052700519704e5704e1e04e0804e0a097980969c094180937e09266091a408cde08c6108a7308a54,
  0x05c3b08fb108755098df089e6082720807707e54071ed06b960690d062ed098fe057f40563109320091b808b72084b807a6307573072b606d4406756,
  0x082af081e307d33079e60795e0771f075b90753306df106d780699b068ee0664b065b00632f0614e05fc305be905bdd05a200550704fb504fe104f38,
  0x0980808acf07b250976d0966308fc508a0a0814e05c3d0751a05c0b058ec058750520304ec104eba09707091dd0903208f9b08eab08a3a089aa085aa,
  0x0657005d6905d0709ac40745e0968f093180931009154090420887007fe007c8b077610708a06c34063a805e25057820543909017053a8056f309162,
  0x062100602705f81059d3052e205236051c40662f0755d0702c04e1605bf80647a06f84088fe096c009817083c506919067490636e096db08da8067a2,
  0x065890975909752091920901d08acb08a9308aa00897f088fd058f00805607cbe076db0751f0727206e0506b6306816068f2066740661f065740653f,
  0x0629806442063a5062d905207078a908e5f08de108d6408cac0810a07e3e07c4d07a4d077f30679006614065a50621a060dc05e2d096bb0810607a0e,
  0x06d1706d4506cc90683406813064b0062470622605ddd05c1605c0205ba305360053430514804ed9087490820c07d76096ea08aac07bc007a8308a2d,
  0x0524d09bae0958309291092ad090770907808df508cce08a6e085a6082390821b0817a07fa807e4a07dda07bad07a7f065cb0717d0714e06f5c067d3,
  0x07d4407d2007c97079df079560790e0758e0758f072d90695a066fd066fe063aa05ca8058510564c07cce081b307e5507985051680713606f3805584,
  0x064cd063bb0633f063830635c060f3060e30531d05c6405b8b0723d0594f058ee055aa05009053e2053cc05275050e709f20090610963b08a3408607,
  0x0906d0900108d70088c5085fb084bc0846c08358083490806107d9c07dcf07cdf07a93076f8075e904e89071e506f15069fd069cd05de3066f9065e9,
  0x065cf08cca05c5e04fd70901f08db306e2c0675f063490606f05373052470507404fc30902008d0808535081d30618e05897050cf09a120971c09397,
  0x0695508235067c106253060f0059a5058150553e08a5106c700592a0591a04ed60905c067510640d05c0a05b6b05b58063c305176088960535207d9a,
  0x0968a0902e0900008cb80888b082d40817f080ce06ede06cf0066ff062340614b0602005f8505e2f05cb10801005bfe0580604f5309a28099c409640,
  0x08afe06fc10943808a170742206fef06ca2062d30629e0625805b8505544053530702706edd09df90984c0918d07b2c05927053f004ee309bdb09edb,
  0x062c505766056060535804e3908ab006a3d09c48072f808c37068da08fbf07aea05dfd081310596a08fb00905404f46053e9053ea086f8051e708338,
  0x08ac70753706bb506a8006696065ad05f3e058c7056e30935b08a95086cb080c60803d07dbb07baa07aef077ed070ad06e5b06de106b4e065e6063a2,
  0x05ae10833607a92079e909010084c407b5107af90755c07bc9099b30904508718081f407f6e07a1a075f406c600667a0606505f1b05730077e505024,
  0x051cb0514604e0108caf08457082e70732a0702606a17099d0092f30914e08a3b088770866b06ce8067f10663c062bd05fe005b9904ef204e2d07740,
  0x08d8508adc08abf087760817808139080740773a0753a0725206f6e0671d066a206311061f205fb405f6b05f3505f1405e8105e3305e1605bf50558b,
  0x068020585a0901a075db0939a08ffd069cc0690e0589c06d2509673093ae08cc3073cd06c8806715076f406357052c509ce509802095770929a08df3,
  0x05243050750505c04f4e04ead09db4091e30540a0722a07d2c05b2c058f70576a06f700693f0935407db40852608fbb067d806f2c04f43069fb063b4,
  0x0901308e4408ae608a020824707de007a0b0798e0788706c40068af063d00633a062b50608c05f1f05ef705ead05e9505e1d05b9a058240544808c9e,
  0x05c55059290586b051780924408fed08f4d064a405fb9054f206eba093d10906907b1b0768406ef406575064e20645806ce509f0e091d80912d090b8,
  0x0767b06e210675c0659705f9205c60059ac0585705835054100514e096fb0753006fb106bbf04f1d070b90985b08ee208cbc0751c07e8f06dfb05e97,
  0x05d8b05cf605b950595705858058540551005200051cd051ac0515a0501206012059740571f05ea6052aa0783a078250934d090fd0901408ced083df,
  0x08569084630523007d7107cd607b5207b5407b4907977075d805f53071c80706f06d9b06e6f06dd8076d7068df068bc06843067710642d06295060bc,
  0x08404080f407ae5077b306d1e0649e061a705c0e058020540c052d5050cd095d809a300982d09676094190900f0900308e0f08c4608b0408a0e085e4,
  0x05bc5082eb09cf605c4a0693407a81051f806a610680308aad072ec06bd207be4079bf077630727906d9c05fb305f970533f09d0705ce00928509053,
  0x069620934b0637a0705808b0e08599051ea04e4d05185090a3059480920d066c705451098130904108c5a06c8c06566060c705c6f056780701e09149,
  0x04efb097ee05c3f059820516504e73065e505eff086790808908cd10530208fe905f1005c3c04e8c06c5d096e308edf06960053570757707e04099b4,
  0x07d0d06fc3060a9056a2057dc04e4b05efc04e4307c98071c30649a0637b05ff505e74071b10732b0847105be707962079b006fe108a8d05fcd0598a,
  0x0655706392062dd05ec304ff3099ac082ad07f7505a46078340743606d3e06ce20677708987064ad0628a05df4086a40899708fb2081bf08133080fd,
  0x04f2f08429077e7079e40877f090190966a08ce0058f208cb7072fd07164069730688505a92057f90500d0914d08f29080ba080cc0724c076c30676f,
  0x07b480808707bb80787207bb1051fd09ea6099c1083ab07e1b0720606f20066dd08feb085840823607c9507b940767d06cca067cf062cd0535a05265,
  0x0534a0522404f34096bc086e4058590567a09ce9095a507b4f0629c07f7004f1009aea091970767a06e8c092620516b07560075510808c05e6106ae8,
  0x0756a066690633d098ef0981207169091c607bc408ca9085e90822c07e4107554073ed072af0724806c4e06c3e0677f065910642c05e06053db053cd,
  0x080a507f7707dcb079d807891076ae075b206ccc06bd406590062ab0627906249060b205f7c05e870598305426053510532a086ee08543078d0076e4,
  0x0819d05f6609aed0758b0533907a17067ca09f3b07f8e077090743506bd80678705fae05c3e0509907c3806a0b098db0975e0907f08cbb08ab9088ab,
  0x05edf08c7908a550886807968074e206f0206c3706a1905f6a04ff508b2c0767e07d1005a9b059eb068670903c07b460756205fc505f3c08098083f1,
  0x05a660592b057e004ed804e0d074f60654f0983b08cd308ca70701506d5c0658c05f6c054c109c2d086ed0849c092f209328082d7079d2075c5063cf,
  0x06b66064ab04fae096440961c08d7408ce608ca008b5c082990819a0815007b260723606d6e0666e065a706577062760601605e9c05e03051a805bcc,
  0x0726904ecf06cb80625505f1706df50898608907081790798f0670d05e4505fa90526f04f0f085570847a098a80695305c01090e80856a084610821e,
  0x04e26067c405f0a05e7305e63058400517504f7504e190805e06587096f007d1b07cde07c890596e0711a0626e061a4058b3056740543b0520609b92,
  0x05a29052c904fbf0904d08fd408fba07de807bc707247059090504f07b8608511077a505225078a707656058c1050fb0980107c730965b095890853d,
  0x054460530504ff805023083e907c3f06bcd066ae0620a0615505893052df07a4208f14088dc0752b06b690635505703092ea0821704fdd097ad05f01,
  0x08a2a0891208702084ec0840c082b3080de07e2b07832070f906ce106cd50670b065b90653e06367062b105e9605d2905cef05cf005b9d0594905831,
  0x081a8080aa07d2105192068d2067d00671b066b40623f05fd905fd805e3d059a80574a052560508d04ea104e4f09d6c09cf3098fd092d2090a608c4a,
  0x0672c0595405e4c0580006b8606ca1052c3091e607a46077660726706734064b2058a80535c050d5053170982c05420096320927e08cbf08c8c08b00,
  0x053c804fe304ea60685d09c52067fe09baa067950819c05e55069d9054e906bce0679a06627059b9057cb09ebb09b54078e806469076c6051e107ffb,
  0x0810807a14084d106e4a0871c05bc605cac07b9505df309b450672a054730851306f2b06e800616204e0709ebf07e6d04fad08fc406cab0672b062b9,
  0x0725d059ea09cf40929808ff7076df0660e0547d0540d051a505a1805a7f0690b09d6109727077db0725f0712105922052d90772006c1107c8d05999,
  0x052ff06762076ee09ed90672805132084990801707db2076f20731b06bdb05b5f059840830206a210647809eba0976207dec07dbf068c90514d06ec5,
  0x08e8d08a33085ac07d0405f7905384077e205f25091ce080360723a0591c051b604e5f053010958007d0b060b60554f08cb007c7e0623b05c2409905,
  0x06d8c06e67067da06709063d606182060a005e7d05ba5053cb052c70512a04f510552f08f3808aed0765206cb9061080610909453085ae067f309756,
  0x063da05eb805bb90599605e7c050ad0981008f3f08a8904e0e04f5904e88059150878d096c4090f5090910904a08a98088d507950075310733707336,
  0x06c8306b32062910617e0990a0967d0906508e0a08b2108981084c9084490800007f8a07aaf075280719406eb606d0b069d80694a066dc064c1063fa,
  0x05229089a70862d085cd06feb06b0405d500537504e710916a0843d07d6106d1b096f70983c083b106765088f8087ba07f8506dc007ffc07fcc06d74,
  0x0786b075590740906e9c06d410528907565063a00844e07acb0738705f8b09678096e2091cc088e1088cf075e20748307406068a80674e05c650540f,
  0x08ad20826f07ce707a1c077ad076420731f06dbc068810659905bee051cc04e21050da04eae04e860865c065c50616e04fb609f8d07adc0968607c92,
  0x04f3604ee40985e07d2f06d99058410746009e9f09c57096a308f2a081e807433071d006dcb06797053980502b07dd10529b0981809675091cf0907c,
  0x06f23061900604b05ec9088c2070c8052a30521706b74066a609f6209e970970a096f6096b709234082d30793c073b20601c05dba052b1051b704f8b,
  0x0726206f0f06d6a069940697c0671705f0405eca05a41052b40973208def08cc20708906ad309b6f054420932c09023084ee0806f07df407c3e07149,
  0x09c1004e9804e9909df2067a0060d10810708cc406b6a08a710548c0502d08ad6093320808b0798409e930516d090ce0874b0807e0800107bed072fc,
  0xfffffffffffffffffffffffffffffffffffffffffffffffffffffffffffffffffffffffffffffffffffff081550789706e7e0690008568085c108a6b,
  0xffffffffffffffffffffffffffffffffffffffffffffffffffffffffffffffffffffffffffffffffffffffffffffffffffffffffffffffffffffffff,
  0x04ea204ea004e9f04e9e04e8e05f0d0821204e8a08c6b04e8504e8204e5804e5604e4204e3f04e3c04e3604e3104e2a04e1504e1005f0cffffffffff,
  0x04f9804f8f04f8804f7604f4704f5704f5d04f5b04f3004f5a04f0904ef704edf04eed04ede04ed704ec204ec604ec404ecd04ece04eb604eb304eb0,
  0x05005050250502a05014050280501a04fe504fe404fd004fda04fd104fdb04fd804fce04fdf04fd40511804f9604f8604f6f04f9104f7004f6904f7b,
  0x050b2050b4050850509a05080050780506c050560505a050480505005055067030504705043050060501104fef04ffe0502c050290502104ff604f1c,
  0x0513b0513c051370513a051210511a051140511505116051020510105109050f5050f9050ee050e3050ed050e5050de050d6050c2050b3050ca050c9,
  0x051a9051a2051a6051a4051960519505193051910518f051890518c056d805182051800516e0516a0516907af805162051540514c05152051400513f,
  0x0522a052270520e052140520b05204051fe051f5051f0051ed051e908655051e0051db051c9051c5051bd051b5051b0051b2051b1051b3051ab051aa,
  0x052ac08fa708fa805291052880527105292052940528d0527d0527f0527305269052740526a052540525e0524c0524b052440524f05239052330522e,
  0x053230531a053150530f053100530d075380530805306052f9052f8052f5052f3052e0098ed052e6052e3052de052d7052cd052c1052b5052bc052ad,
  0x053b0053ae053a5053a6053a00539605382053770537b059180536e053690535e051d60534d0534904e170534505346053400533805333053310532f,
  0x054750548f0544e0541d05429054360542e0543c0542d0542c054400543d05401053fa053ed053e8053ee071ee066fc053df096d907c12053c3053b6,
  0x054be054a4054c2054ab054a8054c8054c4054ac054a5054b8054a2054c705486054900548405476054800547b054920547005477054710545f0548e,
  0x055990555d05533055380555705556055450555c0552e0554c055630554005539054e2054fa054ed054ee054fd055140550f054e6054e5054d8054bc,
  0x05616055f705614055d4055e4055dc055c4055df055c5055da055a805587055a9055830557c055ae0559e055980557e0557b0559f0558a054af05580,
  0x056ae056a50568f05694056a00568a05680056860566a0566c0562f056640566b05638056320563605634071df056500564e055f90561b055fd055fe,
  0x0571605718057130570d0570b057080570905704056ff05700056f9056ee056d7056d3056d1056ce056c8056c0056c3056c1056bc056c2056b4056b6,
  0x057d4057c6057c3057b0057aa057a4057b3057a005793057890577f0576105788057c0057690574f057400573b0574e0573805737057260571c055c7,
  0x058bb058de058ba058ab0589f058b905885058790583d0585206bc0058700584b0586205821058720581d058190580b057e3057d60580a057d3057d2,
  0x05925068a60591b059100590a05902058fd058fc058fb058f9058fa058ef058df058e4058dc058e5058d8058d9058d7058d1058d3058c5058ae058b8,
  0x059c6059b2059a304fab04f5e0599d0598105978059690596c059670596005962059580595a0594e059500595507ad20593e05938059320592d0592c,
  0x05abd05ac205acb05abe05abc05a9a05a6a05a6205a3605a3505a4905a6c05a4005a1a05a0905a1c05a1105a1f05a25059da059d90598d059dc059e8,
  0x05b6905b6505b5b05b5a05b5505b5105b4005b4505b4305b3e05b3605b2a05ad005b3205b1605b0b05b0c05afb05afa05ad605ae905ae605ad705ae3,
  0x05bf305bf605bf005beb05be505bde05be205be605be405bd005bd405bc905bc705bc305bb805ba605b8305b8005b7a0658805b7805b7505b7305b70,
  0x05c9105c8c05c7905c7604e6205c6e05c6c05b7105c4f05c5005c5305c4e05c4605c4105c3905c3805c2805c2205c2005c1305c0d05c0805c0705c05,
  0x05d1105d1b05d1f05d5c05d1705d1505d0b05cea05d8c05ced05cfa05cfd05ce905cd905cc705cbe05cc505cb705cbc05cb605cbb05cab0599b05c94,
  0x05dc905dbc05db705d9005dbd05dae05dac05d9d05da205d8205d8405d8705d7605d7305d6c05d4b05d4e05d5205d4c05d1805d1905d1a05d2205d14,
  0x05e6405e6205e5f05e5405e5705e4e05e4005e4305e4405e3705e3605e1b05e1105e1905e1a05e0b05df505df205deb05ddb05dd605dd205dd305dcd,
  0x05ef305ef105eec05ee905ee805ee105ee205edb05eda05edd05ee305ed605ecf05ed005ec805ec205ec105ea005e7f09ebc05e7a05e7605e7505e47,
  0x05f6105f5905f5705f5605f5105f2f05f4e05f4c05f4805f4105f3805f2d05f2905f1605f1105f0b05f5c05f5d05f0905f0305efe05ef805ef405ef0,
  0x060b305fdd05ff105ff805fe405ffb05fd605fbc05fad05fa805fa005f9805f9905f9e05f8705f9105f8805f8a05f7f05f8205f8305f7705f7305f6d,
  0x06043060630604d060460604a0605f060770606a060410605a0603a0600f060260602b060150601b060310600e060290601006019060600602105fff,
  0x060bd05ff0060b4060d3060e0060b8060e10608b060a70609206097060960609b060840609a06083060e70608d06081060590606b0606c0604206064,
  0x0613c0613f0614a06127061280613e061470610e0610d060f1060fb0612106103060fa060f406100060f7060f606106061150614d060d8060b5060c6,
  0x06194061ac06187061960619906175061530615d0615f06171061650616f061740616b0615a0615906158061770617306144061420613d061340612c,
  0x061fc061fd061ff061f4061fa061f6061e3061e6061cd07f79061cb061ba061c6061c3061c8061f7061c9061ca061cc061ae061ab061910618a0619a,
  0x062820627c06268062600625b062630625e0624e062410623306232062300622e0622a062210621e0621b062140620c0620d062090620806200061fe,
  0x0630c062c90629b062c7062c2062ca062cc062dc062c8064d4062c6062ff062cf062bb062d1062d70629406283062d40629606293062920627e06289,
  0x063690636b063b50639f063890638f063a306376063ab063800638e063960634f0641c0634d0633e06350062f5062ef063080630206327062f1062ee,
  0x0652a0644e064760646f064670640f06428064170651d064360642606413064060643406416063c4063f6063d2063c9063e3063c6063c0063e9063be,
  0x064f4064f60652c064ef064e3062ac064e1064e008209064e7064f1064c2064d8064bb064c7064c5064d2064da064bc06488064a9064a50649306495,
  0x065720655d0655e065580654d0655506556065480754b06538065360653706535065340652b0652306524065050651c06518064fd06500064fa064f2,
  0x06773065fb066030660a06772065f1065e1065e0065d9065db065d2065cc065c4065c1065c6065c3065b7065ab0659f0659b08b8a065830658206578,
  0x066c10669d0669806684066890668e066880668306670066620665f0666806667066640665d0665e0664106649066440664f0661c066340663606635,
  0x067360673f0672e0973806727067260671e067160670f066f7066f5066f0066e9066e60663f066e0066da066d6066b8066c4066bc066be066c9066b9,
  0x067b3067ec067b4067ef067b706785067a1067a60678b0678c0676a0677c067a90677006789067640676306759067600675e06746067370673806741,
  0x0687706863068590682b068b30684e068320684d0684006829068460681e06a9c067e7067c6067ce067b9067ee067e2067dd067de067e4067b8067e9,
  0x068e10692606922068d806908068ca069010687e0688d0690f068ba068a0068b506874068b906aae068830689b0689d06894068ad0688f0689f0687f,
  0x069780695c0697706979068c606921069230691a0692a06928068ef068e0068f906925068e3068d7069040691206936068d5068e7068d4068cd0690c,
  0x069ca05be8069ce069be069d3069c1069bf069d0069ae069b20696a069810695d0695e0696106930069590693d06974069390696e0697e069540696b,
  0x06a14069ed06a1e069b106a05069e7069f2069f906b0a069ff06a1b06a02069e8069de069b4069950699c069a00699106a2e069a7069c3069bb069dd,
  0x06aa306aa206a8406aa006a8d06a9006a2206a3806a4806a6606a5906a6206a4706a7806a3606a7206a0c06a4406a1306a2306ac106a1206a0a069eb,
  0x06b3706b3806b1f09b3106b1606b1206afa0861606b0506afb06aea06ada06aaa06adf06ad106ade06aac06ab306ab806ac206ac306abb0861706a97,
  0x06baa06ba406b9e06b9506b9806b8d06b8306b8406b8006b7f06b7906b7806b6106b5f06b5b06b5406b5906b5006b4906b4306b47098ee06b39076dc,
  0x06c5506c5e06c2306c2406c1b06c1406c1306c0809ebe06bef06bf306beb06bec06bdf06bd306bcb06bc606bbc06bb706bb306bb106bb206baf06bab,
  0x06cdb06cba06cbe06cb106cae06cdd06cc506cd706cbd06cd306cf106cc406c9006c9206c7306c6806c7e06c9b06c8106c9a06c8d06c8206c6a06c62,
  0x06d8506fe406d9506d8e06d5906d7906d5a06d6406d9306d6306d0c06d1206d3306d3506d1906d3806d3d06d2b06d360884d06d1f06cea06cd906cef,
  0x06e1906e2e06e6e06e2d06dee06dea06dd506de406dd906dfa06dc506dd206de806dcc06dde06dec06dc606db806de606dc706db506e0a06e1506df9,
  0x06eaf06ebd06ed306eb706ec906e9806eaa06e8206e3806e1d06eff06e2406e4e06e3a06e4306e1f06e4d06e7606e2b06e6b06e2306e3e06e5f06e72,
  0x06f8606ef706f1306f3e06ecc06f3206eef06f3106ef206f3f06efe06ef806eec0704c06f1106f4106e9f06ec206ea506e8f06ed506ed406eb206ec4,
  0x06fd506fdf06faa06fc606fb906fa406fa106fa306fb306f6606fc206f9106f8e06f5806f7c06f8206f6d06ff306f5b06f6f06f8006f8106f7806f7a,
  0x0706307051070320703e070300701f070180701d06f740701a0701b06ffe0700f070010701106ffa0700b0700906fdb06fee06ff106fd806fd406fec,
  0x0716c071560714c0716207166071880715507165071190711c070fd07109070d9070dd070cb070df070ae070b3070b8070ac070f1070af0709207099,
  0x072280721b072100720d071ff071f9071fc071f5071e7071ec071e0071ce071d4071c9071d2071be071b9071d7071ac071a80719507184071fb0718f,
  0x072c6072c3072b2072b9072a7072a207296072920728707281072820727e07274072580724b07246072400723f0723c0723b07232072300722c0722d,
  0x0736a0735709ed80734f0734e0733e07325073290732f073340731d073160731c0730a073170500f072f7072f9072e1072e0072e2072d2072ce072c4,
  0x0745f0743f074550743a07432073f8074250746f07405074a2073de073ee073e5073c0073bb073ce073b3073c80737a0737b07375073780737007368,
  0x074f1074f0074f2074ee074e9074e7074e3074e0073f1074d4074cf074ca074a70749e0748b0747e074760746a0746307470074690745c0744107459,
  0x0756707564075690755a075460755b075490754a0754d075440753c0752c075260751e07513075150750d0750e0750c075050750307504074f7074f8,
  0x075cd075b1075bc075b8075bd075b5075c3075b3075c2075a3075a50759d0759a0759407582075890758a07574075870758607576075780756d0756b,
  0x076300763407624076220762107620076270761f076090760d0760b075f3075f2075fa075f007601075fc075ff075fe075de075e3075d9075d2075ca,
  0x076960768e0768b0768807683076800767c076780767607672076700766c076670766a07669076680766207661076580765c0764607648076470763b,
  0x0772407729077040770707708076fb0862f076ea076e7076e5076e1076de076d2076d6076cd076c2076ba076b9076b8076b4076b00769a0769907693,
  0x077bf077b9077b6077b00779e077a0077910778b0778e077790777e0777f077650775b0776b077680775a0774707738077370771b07726077250771e,
  0x078a30788c0789a0787c07886078740788e078450792a0782007926078120780c077fc077ee077e3077dc077da077d7077cd077c7077bb077bd077bc,
  0x07960079400792b0792c07919079110791207907078f4078fd078da078e7078ec078ca078c5078bc078be078d4078cb078c6078d1078af078aa078b5,
  0x07a0d07a08079e3079e1079ec079e7079d5079c9079ba079b9079b3079ae079aa09f4b079a70799d0798a0797f0797a07953079550795a0795f07957,
  0x07a9607a9807a9507a9707a8807a7d07a7907a7009f9d07a6907a6207a6107a4907a5707a4307a3707a3e07a3b07a310798007a1f07a2007a1907a18,
  0x07b0f07b0207af007aed07ae607ae207ae107add07ada07ad907ad307ad507acf07acd07aca07ac70908307abf07ac407ac507ab607ab007ac807aa9,
  0x07b6e07b6c07b7107b7007b6707b7407b6507b7507b4507b4c07b0b07b4d07b0407b7a07b5007b3607b2807b3507b1e07b1907b1807b3307b0607b0a,
  0x07c6007be507be607c1407c1107be907bdd07bc607bb407bcf07bcc07bc107bcb07b9907b5d07b8f07b9207b8b07b9a07b9c07b8d07b9f07b9807b9d,
  0x07c6407c5f07c5807c5007c4007c4f07c5407c4307c4c07c3d07c2b07c3707c1f07c2a07c2707c2307bf607c0d07c1707bf707bf307c1307c0707c00,
  0x07cdc07cd207cd807cc207cc507cc007cbd07cb907cae07cb107cb207cb307ca807ca107cab07ca207cad07ca407c9007c8307c7507c6c07c6507c56,
  0x07d6807d7207d4e07d5607d7307d4607d3507d3f07d3207d2e07d4b07d4507d0a07d1507d1c07d0207d0607cfa07cf607cf407cf207cef09b3b07ce2,
  0x07dd807db007d9f07db807ddc07daf07da207e3d07dab07dbd07dc707db507da307dae07dba07d9b07d7d07d8f07d5b07d8907d9307d6307d4f07d6e,
  0x07e3207e3707e4307e3907e3507e3b07e6607e4607e2207e0b07e0907e1f07e3107e1207e2107e2307e0a07e0507de107df207dfb07dde07de407ddd,
  0x07e9407e9307e9007e9207e8c07e8907e8807e7f08fae07e7d07dd507e8307e7b07e7c07e6907e6a07e7907e5a07e5907e5e07e5607e5d07e6707e3a,
  0x07f8307f8607f8207f7807f6707f6907f6807f6007f5f07f5807f5407f5507f5107f5007f4e07f4d07f4c07f4507f3a07f3807e9c07e9b07e8e07e96,
  0x07ff307fe907fe607fe107fd407fd507fca07fc607fc508b7107fb807fb607fae07fb907fb207faf07fa307f9a07f9d07f9e07f9407f8c07f8707f88,
  0x08070080720807308068080620805f0805a0805808052080460804a0803b0803f08028080210801c0801908018080120800b0800408006098dc07ff9,
  0x0811b080f1080ef08109080d6080da080c4080dd080d9080e5080db080ac05190080ad0809a080930809b0808508086080840807f0807d0807908076,
  0x081a3081a408195081a008182081800818a08188081830817408166081650816e08171080fc08151081530813e081460968b0814b0812f0812308129,
  0x081fe081fb081fa081e7081e0081df081da081c8081d8081d9081d1081cd081c9081ba081c2081c0081bd081b8081be081b5081b0081a9081930815f,
  0x0822e0826b0826a0826808262082640825f0825a0825d08258082590824008233082380822b0822908216082100820d0820a08207082050820208201,
  0x082dc08306082de082f9082fb0830308393082fa082f3082f4082d2082df082e3082e1082ac082bb0829f082ab082920828d0827e082780827708271,
  0x083870838e0832308396083a20839f083aa0839a0838508318083170832b0832f083450835008339083400833108332083160833408335082d908309,
  0x08420084220840d083f2083e008407083f7083c10840b083d808403083fd083ce083eb08413083f4083a808389083a00837508373083b50837c0838a,
  0x084bf084b908462084ca08435084790846f0842c0844608469084820846e084ad0846b08477084840855a0843c0842a0846d083fb0850608438083bd,
  0x08548085580856308540084fc08514085150851f0852c0851808517084f4084ff08521084a1084d6084c6084c1084d0084da084bb084cd084d90849f,
  0x085d0085b9085cf085ba085c9085900857e085770859c08587085ea0859b085940856d085a80858a0859108588085a408580085550854b0860208541,
  0x086a9086a30869308671086670865f0865404e550864d0863f086300861a0862208606085fa085fe0860b086130860a085f9085dc085e5085dd085d5,
  0x086fb0870308700087080870608712086ef086db086df086ec086e9086de086d4086ab08823086c9086b0086c6086c4086af086b60868c0868b086aa,
  0x0876308753087590876e0876808757087740874e0874c087780875f087600871a08729087250873b087370873f087340870a086f90870d0870908711,
  0x087f6087fe0880d0880f087e0087f2087ef087bb087c6087c7087b3087c4087ab096d6087d0087c0087bd087cb087af087820879f087a2088050876a,
  0x088750889e0887e088810886b088620885e088590885208842088440883b088270883908836088310882108822088150881608811087d20880e087f7,
  0x088f4088fc08902088f9088dd088d9088d8088d4088c4088c3088b1088bf088b0088a40888d088a208899088ae08892088970888208872088b50887d,
  0x0896a0896d08964089660895e089600891d0894c08938089360893b08944089410892b0892a089250891e08943089130890a0890c08904088f2088e8,
  0x089f4089e7089dd089dc089da089c0089bf089bd089ba089b2089af089ac089a6089a9089a108998089930898a08988089830897e08977089740896f,
  0x08a9108aa108aa808a8408a8208a8508a6208a6c08a6d08a7c08a4808a4608a5208a5b08a4108a3608a2508a1d08a1b08a0c08a1008a1608a03089f8,
  0x08b1608ae108b1a08b0708b0c08adb08ade08af708ae208ae008b1408af108ae408ae708af308aeb08ada08ac208acd08ac408aa308a9a08aa608aa5,
  0x08b8008b7d08b7408b6f08b6c08b5f08b6b08b5a08b5b08b5608b4908b4e08b4f08b4c08b4108b2808b3e08b2b08b26097ab08b3308b2008b1708b10,
  0x08c8d08c8a08c8508c8908c8208c7a08c7808c6c08c6208c5508c5008c4e08c4c08c4808c3f08c4108c3a08b9a08b9908b9608b9308b9208b8e08b8c,
  0x08d0708d0a08d0508d0408cfb08cfa08cfd08cda08ce308ce408cc108cc808cb608cae08cb308cb208cbd08caa08cad0621d08c9808c7c08c9408c8e,
  0x08dea08dcb08ddb08dcc08dd608dda08dcf08dba08dbe08dc208d9908d8108d7308d7108d6d08d6708d1608d1408ccd08d1309f4e08d1008d0d08d0f,
  0x08e6008e6408e5908e4808e5008e4c08e4908e4708e4a08e3408e3008e3508e4208e1f08e1008e1e08e1d08dff08e0908e0808dfc08de308ddf08deb,
  0x08ec508ebe08eb108ec608eb008eac08ea108eaa08e9908e9408e9108e9308e8a08e8b08e8408e8508e8708e8108e7c08e7208e7608e5508e6308e2a,
  0x08f4208f4508f3908f3b08f3308f2608f0c08f1b08f1f08f1c08f1308f1908f1208f1508f0508f0a08efe08eeb08efb08efc08ee308edb08ecb08ec8,
  0x0900508ff40908708fef08fea08fe208fe508fda08fb708faf08fad08fa308f9f08f9c08f6408f6308f6208f5c08f5708f4e08f4608f4908f4c08f3e,
  0x0905e09058090560903e090490900e0905209051090500904f08ff8090390903509036090270900b090160901e0900d09021090150901108ffa08ff9,
  0x09132091190911209102090db06248090e4090e2090b5090b1090af090a80908f090890908a09080090810907d0908209072096a8090760906f09068,
  0x091d0091cb091c9091c1091c0091ba091b4091b5091aa091af091ab091a209182091890918b091720917309169091650916309158091560914a09130,
  0x0929c092500924b0923f0929509248092640924909245092570925e09211092150922c09214091ff0921e091f6091f5091fc091db091e1091df091d6,
  0x093560936e0937c093600935c0933b093350933a093230931a09322093190932e09344092fa0930f092e9092b7092b9092cf0925a0929b0929309296,
  0x094350942b0943609410094070940309413094140941a093e4093c8093d0093dd093c3093d8093e5093e8093d7093d6093b909394093ad093ac093b0,
  0x095940958a09587095820947f094810947e0947c0945a0947d094770947509470092290946a0945e09462094600945b0944409452094410943a09421,
  0x09621095e2095e5095e1095dc095d6095d4095d5095cc095cd095c306ff6095ca095be095b9095bb095bc095ad095a7095a8095a0095990959809596,
  0x096b0096b2096b1096a7096aa0969709695096980968d0966c09672096660965f0965d0965e0965c096770964b0964f0964c096420962f0962e09628,
  0x0972a0972409719097160970f097110970e09713097080970609704096f9096d50970d096dc0894d096cd096c9096cb096ce096b9096b8096b6096b4,
  0x0978b097860977a097810977c0978509779097710976b052d2097680976609764097600975c09749097420974809746097440973e0973d0973909730,
  0x0982109824098380980c0980f097f5097f607adf097f209f4f097ed097dc097cb097c8097c6097c3097b4097b3097a3097a6097a80979c097900978f,
  0x09914099120990909903098eb098e9098c6098c3098c4098b6098b1098af098aa098730987409871098700986f0986b0984b0984f098460983d09837,
  0x099ae099ad099a50999809997099550994c09952099510994b099500994509949099420993e0993d0992e0992c09920099240991e0991d0992109918,
  0x09a3e09a4309a4009a4209a4509a3709a2b09a19099e209a0509a0f09a01099f8099fb099f2099f1099ee099ed099d1099d8099dd099db099df099bc,
  0x09ae609ae309ae209adf09ade09ad409ad309ad109acf09ac009abc09ab009aad09a6a09a6b09a6909a6409a6509a6209a5f09a5709a5b09a4d09a55,
  0x09b4f09b4309b4409b3209b2f09b2e09b2a09b2909b2809b2709b2509b2309b2209b1f09b1a09b1809b0609afb09af709af109af409aee09aeb09aef,
  0x09be409be209be309bd209bd109bcf09bc609bb909bca09bc009bb409ba809ba009b9f09b9709b9609b9109b8309b9309b7409b5809b5109b4e09b4d,
  0x09c3209c4709c3009c2109c2409c2509c1b09c2e09c0409c0a09c1209c0809c0609c0c09c1309c0909c1409c1509bf009bf109bf209c3a09be109bd4,
  0x09d4109d1209d1509d4409d1f09d2309daf09d2609d2a09d0609d0309ceb09d0809d0909cf009cec09ce709c7809c7609c6709c6009c5a09c3e09c46,
  0x09db809dbb09dc109dc409db209da909da409d9a09d7a09d6f09dab09d8709d8909d7209d5909d5009d5109d6409d5e09d5d09d4809d4609d3e09d3f,
  0x09e9109e9509e9209e8c09e8b09e8809e8109e7d09e7909e7509e1e09e1b09e1a09dfd09def09ded09de609df809dd309dd909dc209dcf09dc609dba,
  0x09efb09ef909ef709ef609ef409eef09ee809ee509ee009edd09ede09edc09ed409ed009ecf09ece09ecc0976109ead09eaa09eb809ea909ea509e9d,
  0x09f9509f7609f7209f7709f6a09f6c09f6709f6609f6109f6009f5f09f6309f5409f5209f4a09f3e09f2c09f2109f15076b709f0809f0709efd09efc,
  0xffffffffffffffffffffffffffffffffffffffffffffffffffffffffffffffffffffffffffffffff07199051dc0746409059069c70582f09fa009f9c,
  0xffffffffffffffffffffffffffffffffffffffffffffffffffffffffffffffffffffffffffffffffffffffffffffffffffffffffffffffffffffffff,
  0xffffffffffffffffffffffffffffffffffffffffffffffffffffffffffffffffffffffffffffffffffffffffffffffffffffffffffffffffffffffff,
  0xffffffffffffffffffffffffffffffffffffffffffffffffffffffffffffffffffffffffffffffffffffffffffffffffffffffffffffffffffffffff,
  0xffffffffffffffffffffffffffffffffffffffffffffffffffffffffffffffffffffffffffffffffffffffffffffffffffffffffffffffffffffffff,
  0xffffffffffffffffffffffffffffffffffffffffffffffffffffffffffffffffffffffffffffffffffffffffffffffffffffffffffffffffffffffff,
  0xffffffffffffffffffffffffffffffffffffffffffffffffffffffffffffffffffffffffffffffffffffffffffffffffffffffffffffffffffffffff,
  0xffffffffffffffffffffffffffffffffffffffffffffffffffffffffffffffffffffffffffffffffffffffffffffffffffffffffffffffffffffffff,
  0xffffffffffffffffffffffffffffffffffffffffffffffffffffffffffffffffffffffffffffffffffffffffffffffffffffffffffffffffffffffff,
  0xffffffffffffffffffffffffffffffffffffffffffffffffffffffffffffffffffffffffffffffffffffffffffffffffffffffffffffffffffffffff,
  0xffffffffffffffffffffffffffffffffffffffffffffffffffffffffffffffffffffffffffffffffffffffffffffffffffffffffffffffffffffffff,
  0xffffffffffffffffffffffffffffffffffffffffffffffffffffffffffffffffffffffffffffffffffffffffffffffffffffffffffffffffffffffff,
  0xffffffffffffffffffffffffffffffffffffffffffffffffffffffffffffffffffffffffffffffffffffffffffffffffffffffffffffffffffffffff,
  0xffffffffffffffffffffffffffffffffffffffffffffffffffffffffffffffffffffffffffffffffffffffffffffffffffffffffffffffffffffffff,
  0xffffffffffffffffffffffffffffffffffffffffffffffffffffffffffffffffffffffffffffffffffffffffffffffffffffffffffffffffffffffff,
  0xffffffffffffffffffffffffffffffffffffffffffffffffffffffffffffffffffffffffffffffffffffffffffffffffffffffffffffffffffffffff,
  0xffffffffffffffffffffffffffffffffffffffffffffffffffffffffffffffffffffffffffffffffffffffffffffffffffffffffffffffffffffffff,
  0xffffffffffffffffffffffffffffffffffffffffffffffffffffffffffffffffffffffffffffffffffffffffffffffffffffffffffffffffffffffff,
  0xffffffffffffffffffffffffffffffffffffffffffffffffffffffffffffffffffffffffffffffffffffffffffffffffffffffffffffffffffffffff,
  0x06631070bb04fc9084dc09288093480891c07e8affffffffffffffffffffffffffffffffffffffffffffffffffffffffffffffffffffffffffffffff,
  0x050940504205070050460501e04fff050220504004fcd04f9404f9a04f8a04f9204f5604f3904f0304f0004efc04ee104e2805f45066fb092f9068c8,
  0x054ff054a90548a0549c0fa0e053dd053b20539305372053240530705300052db052c0052a60529c05215051ec051be0519d051640514a050d8050f4,
  0x05ca605c1e05bec05bd80752f05bc005b56059ba059a4059630595d0595b059530590b058b20589e0fa100fa0f057c7057c8057ac057650575905586,
  0x0613706111060f206120060d5060de0608a060850605d05fde05fb705f6705f3405f2105dd005db905db805d6d05d420fa1105d5305d2705cf505cba,
  0x066b2066a006699066730fa12066590665706665066240661e0662e066090663b06615066000654e064ce0649d06460063f5062a6062130619806130,
  0x06bd606ae406ae206a7e06a7306a4606a6b06a30069e2069980fa14069680fa13068cf0684406801067c006852067bb067660f9290670e066fa066bf,
  0x070070700506ff506fb506f8806ebf06e3c06e2706e5c06e3906dfc06df206df806dcf06dac06d9606d6f06d8706d0406cda06c6f06c8606c5c06c3f,
  0x07426073f507407073d2073e3073d6073c9073bd073770fa1607324072be072b1071fe071c10fa1507147071460715c071040710f070ab0708507028,
  0x0fa1a0fa190fa18079300787a078640784e07821052af077460fa17076a60769b0769e0769c076820756f075010749f07489074620742e074290742a,
  0x08448083f6083c70837f08362083010fa1e07fa107f4707e5207dd607da007db707d5c07d480fa1d07b9e07aeb0fa1c07ae707ad10799b0fa1b07994,
  0x08d7608d1208cf408cf008b7f08b5308af60fa2208adf08abe08aa708a7908a3708a12088f5088070fa210fa20085b00fa1f0856b0855908553084b4,
  0x092590924e0923c092400923a0920a0921009206091e5091e4091ee091ed091de091d7091da09127091150fa26090de090670fa250fa2408ecf0fa23,
  0x0935709370093020931d092ff0931e0fa28092fb0932109325092d3092e0092d50fa27092d0092d9092d7092e70927809277092a7092670923909251,
  0x099270fa2b0fa2a098650985709755097510974f0974d097430973b09733096af0969d0fa290f9dc09592094480944509431093f8093de093c6093a4,
  0x021750217402173021720217102170ffffffffff09ed109e190fa2d09d6b09d7009c0009bbb09bb109b8f09b7209b7509adc09ad909a4e0999e0fa2c,
  0xffffffffffffffffffffffffffffffffffffffffffffffffffffffffffffffffffffffffffffffff0ff020ff070ffe40ffe202179021780217702176,
  0xffffffffffffffffffffffffffffffffffffffffffffffffffffffffffffffffffffffffffffffffffffffffffffffffffffffffffffffffffffffff,
  0xffffffffffffffffffffffffffffffffffffffffffffffffffffffffffffffffffffffffffffffffffffffffffffffffffffffffffffffffffffffff,
  0xffffffffffffffffffffffffffffffffffffffffffffffffffffffffffffffffffffffffffffffffffffffffffffffffffffffffffffffffffffffff,
  0xffffffffffffffffffffffffffffffffffffffffffffffffffffffffffffffffffffffffffffffffffffffffffffffffffffffffffffffffffffffff,
  0xffffffffffffffffffffffffffffffffffffffffffffffffffffffffffffffffffffffffffffffffffffffffffffffffffffffffffffffffffffffff,
  0xffffffffffffffffffffffffffffffffffffffffffffffffffffffffffffffffffffffffffffffffffffffffffffffffffffffffffffffffffffffff,
  0xffffffffffffffffffffffffffffffffffffffffffffffffffffffffffffffffffffffffffffffffffffffffffffffffffffffffffffffffffffffff,
  0xffffffffffffffffffffffffffffffffffffffffffffffffffffffffffffffffffffffffffffffffffffffffffffffffffffffffffffffffffffffff,
  0xffffffffffffffffffffffffffffffffffffffffffffffffffffffffffffffffffffffffffffffffffffffffffffffffffffffffffffffffffffffff,
  0xffffffffffffffffffffffffffffffffffffffffffffffffffffffffffffffffffffffffffffffffffffffffffffffffffffffffffffffffffffffff,
  0xffffffffffffffffffffffffffffffffffffffffffffffffffffffffffffffffffffffffffffffffffffffffffffffffffffffffffffffffffffffff,
  0xffffffffffffffffffffffffffffffffffffffffffffffffffffffffffffffffffffffffffffffffffffffffffffffffffffffffffffffffffffffff,
  0xffffffffffffffffffffffffffffffffffffffffffffffffffffffffffffffffffffffffffffffffffffffffffffffffffffffffffffffffffffffff,
  0xffffffffffffffffffffffffffffffffffffffffffffffffffffffffffffffffffffffffffffffffffffffffffffffffffffffffffffffffffffffff,
  0xffffffffffffffffffffffffffffffffffffffffffffffffffffffffffffffffffffffffffffffffffffffffffffffffffffffffffffffffffffffff,
  0xffffffffffffffffffffffffffffffffffffffffffffffffffffffffffffffffffffffffffffffffffffffffffffffffffffffffffffffffffffffff,
  0xffffffffffffffffffffffffffffffffffffffffffffffffffffffffffffffffffffffffffffffffffffffffffffffffffffffffffffffffffffffff,
  0xffffffffffffffffffffffffffffffffffffffffffffffffffffffffffffffffffffffffffffffffffffffffffffffffffffffffffffffffffffffff,
  0xffffffffffffffffffffffffffffffffffffffffffffffffffffffffffffffffffffffffffffffffffffffffffffffffffffffffffffffffffffffff,
  0xffffffffffffffffffffffffffffffffffffffffffffffffffffffffffffffffffffffffffffffffffffffffffffffffffffffffffffffffffffffff,
  0xffffffffffffffffffffffffffffffffffffffffffffffffffffffffffffffffffffffffffffffffffffffffffffffffffffffffffffffffffffffff,
  0xffffffffffffffffffffffffffffffffffffffffffffffffffffffffffffffffffffffffffffffffffffffffffffffffffffffffffffffffffffffff,
  0xffffffffffffffffffffffffffffffffffffffffffffffffffffffffffffffffffffffffffffffffffffffffffffffffffffffffffffffffffffffff,
  0xffffffffffffffffffffffffffffffffffffffffffffffffffffffffffffffffffffffffffffffffffffffffffffffffffffffffffffffffffffffff,
  0xffffffffffffffffffffffffffffffffffffffffffffffffffffffffffffffffffffffffffffffffffffffffffffffffffffffffffffffffffffffff,
  0xffffffffffffffffffffffffffffffffffffffffffffffffffffffffffffffffffffffffffffffffffffffffffffffffffffffffffffffffffffffff,
  0xffffffffffffffffffffffffffffffffffffffffffffffffffffffffffffffffffffffffffffffffffffffffffffffffffffffffffffffffffffffff,
  0xffffffffffffffffffffffffffffffffffffffffffffffffffffffffffffffffffffffffffffffffffffffffffffffffffffffffffffffffffffffff,
  0xffffffffffffffffffffffffffffffffffffffffffffffffffffffffffffffffffffffffffffffffffffffffffffffffffffffffffffffffffffffff,
  0xffffffffffffffffffffffffffffffffffffffffffffffffffffffffffffffffffffffffffffffffffffffffffffffffffffffffffffffffffffffff,
  0xffffffffffffffffffffffffffffffffffffffffffffffffffffffffffffffffffffffffffffffffffffffffffffffffffffffffffffffffffffffff,
  0xffffffffffffffffffffffffffffffffffffffffffffffffffffffffffffffffffffffffffffffffffffffffffffffffffffffffffffffffffffffff,
  0xffffffffffffffffffffffffffffffffffffffffffffffffffffffffffffffffffffffffffffffffffffffffffffffffffffffffffffffffffffffff,
  0xffffffffffffffffffffffffffffffffffffffffffffffffffffffffffffffffffffffffffffffffffffffffffffffffffffffffffffffffffffffff,
  0xffffffffffffffffffffffffffffffffffffffffffffffffffffffffffffffffffffffffffffffffffffffffffffffffffffffffffffffffffffffff,
  0xffffffffffffffffffffffffffffffffffffffffffffffffffffffffffffffffffffffffffffffffffffffffffffffffffffffffffffffffffffffff,
  0xffffffffffffffffffffffffffffffffffffffffffffffffffffffffffffffffffffffffffffffffffffffffffffffffffffffffffffffffffffffff,
  0xffffffffffffffffffffffffffffffffffffffffffffffffffffffffffffffffffffffffffffffffffffffffffffffffffffffffffffffffffffffff,
  0xffffffffffffffffffffffffffffffffffffffffffffffffffffffffffffffffffffffffffffffffffffffffffffffffffffffffffffffffffffffff,
  0xffffffffffffffffffffffffffffffffffffffffffffffffffffffffffffffffffffffffffffffffffffffffffffffffffffffffffffffffffffffff,
  0xffffffffffffffffffffffffffffffffffffffffffffffffffffffffffffffffffffffffffffffffffffffffffffffffffffffffffffffffffffffff,
  0xffffffffffffffffffffffffffffffffffffffffffffffffffffffffffffffffffffffffffffffffffffffffffffffffffffffffffffffffffffffff,
  0xffffffffffffffffffffffffffffffffffffffffffffffffffffffffffffffffffffffffffffffffffffffffffffffffffffffffffffffffffffffff,
  0xffffffffffffffffffffffffffffffffffffffffffffffffffffffffffffffffffffffffffffffffffffffffffffffffffffffffffffffffffffffff,
  0xffffffffffffffffffffffffffffffffffffffffffffffffffffffffffffffffffffffffffffffffffffffffffffffffffffffffffffffffffffffff,
  0xffffffffffffffffffffffffffffffffffffffffffffffffffffffffffffffffffffffffffffffffffffffffffffffffffffffffffffffffffffffff,
  0xffffffffffffffffffffffffffffffffffffffffffffffffffffffffffffffffffffffffffffffffffffffffffffffffffffffffffffffffffffffff,
  0xffffffffffffffffffffffffffffffffffffffffffffffffffffffffffffffffffffffffffffffffffffffffffffffffffffffffffffffffffffffff,
  0xffffffffffffffffffffffffffffffffffffffffffffffffffffffffffffffffffffffffffffffffffffffffffffffffffffffffffffffffffffffff,
  0xffffffffffffffffffffffffffffffffffffffffffffffffffffffffffffffffffffffffffffffffffffffffffffffffffffffffffffffffffffffff,
  0xffffffffffffffffffffffffffffffffffffffffffffffffffffffffffffffffffffffffffffffffffffffffffffffffffffffffffffffffffffffff,
  0xffffffffffffffffffffffffffffffffffffffffffffffffffffffffffffffffffffffffffffffffffffffffffffffffffffffffffffffffffffffff,
  0xffffffffffffffffffffffffffffffffffffffffffffffffffffffffffffffffffffffffffffffffffffffffffffffffffffffffffffffffffffffff,
  0xffffffffffffffffffffffffffffffffffffffffffffffffffffffffffffffffffffffffffffffffffffffffffffffffffffffffffffffffffffffff,
  0xffffffffffffffffffffffffffffffffffffffffffffffffffffffffffffffffffffffffffffffffffffffffffffffffffffffffffffffffffffffff,
  0xffffffffffffffffffffffffffffffffffffffffffffffffffffffffffffffffffffffffffffffffffffffffffffffffffffffffffffffffffffffff,
  0xffffffffffffffffffffffffffffffffffffffffffffffffffffffffffffffffffffffffffffffffffffffffffffffffffffffffffffffffffffffff,
  0xffffffffffffffffffffffffffffffffffffffffffffffffffffffffffffffffffffffffffffffffffffffffffffffffffffffffffffffffffffffff,
  0xffffffffffffffffffffffffffffffffffffffffffffffffffffffffffffffffffffffffffffffffffffffffffffffffffffffffffffffffffffffff,
  0xffffffffffffffffffffffffffffffffffffffffffffffffffffffffffffffffffffffffffffffffffffffffffffffffffffffffffffffffffffffff,
  0xffffffffffffffffffffffffffffffffffffffffffffffffffffffffffffffffffffffffffffffffffffffffffffffffffffffffffffffffffffffff,
  0xffffffffffffffffffffffffffffffffffffffffffffffffffffffffffffffffffffffffffffffffffffffffffffffffffffffffffffffffffffffff,
  0xffffffffffffffffffffffffffffffffffffffffffffffffffffffffffffffffffffffffffffffffffffffffffffffffffffffffffffffffffffffff,
  0xffffffffffffffffffffffffffffffffffffffffffffffffffffffffffffffffffffffffffffffffffffffffffffffffffffffffffffffffffffffff,
  0xffffffffffffffffffffffffffffffffffffffffffffffffffffffffffffffffffffffffffffffffffffffffffffffffffffffffffffffffffffffff,
  0xffffffffffffffffffffffffffffffffffffffffffffffffffffffffffffffffffffffffffffffffffffffffffffffffffffffffffffffffffffffff,
  0xffffffffffffffffffffffffffffffffffffffffffffffffffffffffffffffffffffffffffffffffffffffffffffffffffffffffffffffffffffffff,
  0xffffffffffffffffffffffffffffffffffffffffffffffffffffffffffffffffffffffffffffffffffffffffffffffffffffffffffffffffffffffff,
  0xffffffffffffffffffffffffffffffffffffffffffffffffffffffffffffffffffffffffffffffffffffffffffffffffffffffffffffffffffffffff,
  0xffffffffffffffffffffffffffffffffffffffffffffffffffffffffffffffffffffffffffffffffffffffffffffffffffffffffffffffffffffffff,
  0xffffffffffffffffffffffffffffffffffffffffffffffffffffffffffffffffffffffffffffffffffffffffffffffffffffffffffffffffffffffff,
  0xffffffffffffffffffffffffffffffffffffffffffffffffffffffffffffffffffffffffffffffffffffffffffffffffffffffffffffffffffffffff,
  0xffffffffffffffffffffffffffffffffffffffffffffffffffffffffffffffffffffffffffffffffffffffffffffffffffffffffffffffffffffffff,
  0xffffffffffffffffffffffffffffffffffffffffffffffffffffffffffffffffffffffffffffffffffffffffffffffffffffffffffffffffffffffff,
  0xffffffffffffffffffffffffffffffffffffffffffffffffffffffffffffffffffffffffffffffffffffffffffffffffffffffffffffffffffffffff,
  0xffffffffffffffffffffffffffffffffffffffffffffffffffffffffffffffffffffffffffffffffffffffffffffffffffffffffffffffffffffffff,
  0xffffffffffffffffffffffffffffffffffffffffffffffffffffffffffffffffffffffffffffffffffffffffffffffffffffffffffffffffffffffff,
  0xffffffffffffffffffffffffffffffffffffffffffffffffffffffffffffffffffffffffffffffffffffffffffffffffffffffffffffffffffffffff,
  0xffffffffffffffffffffffffffffffffffffffffffffffffffffffffffffffffffffffffffffffffffffffffffffffffffffffffffffffffffffffff,
  0xffffffffffffffffffffffffffffffffffffffffffffffffffffffffffffffffffffffffffffffffffffffffffffffffffffffffffffffffffffffff,
  0xffffffffffffffffffffffffffffffffffffffffffffffffffffffffffffffffffffffffffffffffffffffffffffffffffffffffffffffffffffffff,
  0xffffffffffffffffffffffffffffffffffffffffffffffffffffffffffffffffffffffffffffffffffffffffffffffffffffffffffffffffffffffff,
  0xffffffffffffffffffffffffffffffffffffffffffffffffffffffffffffffffffffffffffffffffffffffffffffffffffffffffffffffffffffffff,
  0xffffffffffffffffffffffffffffffffffffffffffffffffffffffffffffffffffffffffffffffffffffffffffffffffffffffffffffffffffffffff,
  0xffffffffffffffffffffffffffffffffffffffffffffffffffffffffffffffffffffffffffffffffffffffffffffffffffffffffffffffffffffffff,
  0x021610216002179021780217702176021750217402173021720217102170ffffffffffffffffffffffffffffffffffffffffffffffffffffffffffff,
  0x06631070bb04fc9084dc09288093480891c07e8a022350212102116032310ff020ff070ffe40ffe20216902168021670216602165021640216302162,
  0x050940504205070050460501e04fff050220504004fcd04f9404f9a04f8a04f9204f5604f3904f0304f0004efc04ee104e2805f45066fb092f9068c8,
  0x054ff054a90548a0549c0fa0e053dd053b20539305372053240530705300052db052c0052a60529c05215051ec051be0519d051640514a050d8050f4,
  0x05ca605c1e05bec05bd80752f05bc005b56059ba059a4059630595d0595b059530590b058b20589e0fa100fa0f057c7057c8057ac057650575905586,
  0x0613706111060f206120060d5060de0608a060850605d05fde05fb705f6705f3405f2105dd005db905db805d6d05d420fa1105d5305d2705cf505cba,
  0x066b2066a006699066730fa12066590665706665066240661e0662e066090663b06615066000654e064ce0649d06460063f5062a6062130619806130,
  0x06bd606ae406ae206a7e06a7306a4606a6b06a30069e2069980fa14069680fa13068cf0684406801067c006852067bb067660f9290670e066fa066bf,
  0x070070700506ff506fb506f8806ebf06e3c06e2706e5c06e3906dfc06df206df806dcf06dac06d9606d6f06d8706d0406cda06c6f06c8606c5c06c3f,
  0x07426073f507407073d2073e3073d6073c9073bd073770fa1607324072be072b1071fe071c10fa1507147071460715c071040710f070ab0708507028,
  0x0fa1a0fa190fa18079300787a078640784e07821052af077460fa17076a60769b0769e0769c076820756f075010749f07489074620742e074290742a,
  0x08448083f6083c70837f08362083010fa1e07fa107f4707e5207dd607da007db707d5c07d480fa1d07b9e07aeb0fa1c07ae707ad10799b0fa1b07994,
  0x08d7608d1208cf408cf008b7f08b5308af60fa2208adf08abe08aa708a7908a3708a12088f5088070fa210fa20085b00fa1f0856b0855908553084b4,
  0x092590924e0923c092400923a0920a0921009206091e5091e4091ee091ed091de091d7091da09127091150fa26090de090670fa250fa2408ecf0fa23,
  0x0935709370093020931d092ff0931e0fa28092fb0932109325092d3092e0092d50fa27092d0092d9092d7092e70927809277092a7092670923909251,
  0x099270fa2b0fa2a098650985709755097510974f0974d097430973b09733096af0969d0fa290f9dc09592094480944509431093f8093de093c6093a4,
  0xffffffffffffffffffffffffffffffffffffffff09ed109e190fa2d09d6b09d7009c0009bbb09bb109b8f09b7209b7509adc09ad909a4e0999e0fa2c,
  0xffffffffffffffffffffffffffffffffffffffffffffffffffffffffffffffffffffffffffffffffffffffffffffffffffffffffffffffffffffffff,
  0xffffffffffffffffffffffffffffffffffffffffffffffffffffffffffffffffffffffffffffffffffffffffffffffffffffffffffffffffffffffff,
  0xffffffffffffffffffffffffffffffffffffffffffffffffffffffffffffffffffffffffffffffffffffffffffffffffffffffffffffffffffffffff,
  0xffffffffffffffffffffffffffffffffffffffffffffffffffffffffffffffffffffffffffffffffffffffffffffffffffffffffffffffffffffffff,
  0xffffffffffffffffffffffffffffffffffffffffffffffffffffffffffffffffffffffffffffffffffffffffffffffffffffffffffffffffffffffff,
  0xffffffffffffffffffffffffffffffffffffffffffffffffffffffffffffffffffffffffffffffffffffffffffffffffffffffffffffffffffffffff,
  0xffffffffffffffffffffffffffffffffffffffffffffffffffffffffffffffffffffffffffffffffffffffffffffffffffffffffffffffffffffffff]

/-- `index_code_point_jis0208` (lib/whatwg/encoding/indexes_code_point.cpp:8), 11280 entries. -/
def cpJis0208 : Table := ⟨20, 11280, cpJis0208Data⟩

/-- Rows of `index_pointer_jis0208_0`. -/
def ptr0Jis0208Data : Nat := pack 480 [
  0x003a00039f0039e0039d0039c0039b0039a003990039800397003960039500394003930039200391000f7000d7000b6000b4000b1000b0000a8000a7,
  0x003c0003bf003be003bd003bc003bb003ba003b9003b8003b7003b6003b5003b4003b3003b2003b1003a9003a8003a7003a6003a5003a4003a3003a1,
  0x0041e0041d0041c0041b0041a0041900418004170041600415004140041300412004110041000401003c9003c8003c7003c6003c5003c4003c3003c1,
  0x004360043500434004330043200431004300042f0042e0042d0042c0042b0042a004290042800427004260042500424004230042200421004200041f,
  0x0044e0044d0044c0044b0044a004490044800447004460044500444004430044200441004400043f0043e0043d0043c0043b0043a004390043800437,
  0x021630216202161021600212b0212102116021030203b020330203202030020260202502021020200201d0201c02019020180201502010004510044f,
  0x0220202200021d4021d20219302192021910219002179021780217702176021750217402173021720217102170021690216802167021660216502164,
  0x0226102260022520223d02235022340222e0222c0222b0222a02229022280222702225022200221f0221e0221d0221a022110220b022080220702203,
  0x0246c0246b0246a0246902468024670246602465024640246302462024610246002312022bf022a5022870228602283022820226b0226a0226702266,
  0x0252402523025200251d0251c0251b02518025170251402513025100250f0250c02503025020250102500024730247202471024700246f0246e0246d,
  0x025cb025c7025c6025bd025bc025b3025b2025a1025a00254b025420253f0253c0253b02538025370253402533025300252f0252c0252b0252802525,
  0x0300e0300d0300c0300b0300a0300903008030070300603005030030300203001030000266f0266d0266a02642026400260602605025ef025cf025ce,
  0x0304f0304e0304d0304c0304b0304a0304903048030470304603045030440304303042030410301f0301d0301503014030130301203011030100300f,
  0x03067030660306503064030630306203061030600305f0305e0305d0305c0305b0305a03059030580305703056030550305403053030520305103050,
  0x0307f0307e0307d0307c0307b0307a030790307803077030760307503074030730307203071030700306f0306e0306d0306c0306b0306a0306903068,
  0x0309e0309d0309c0309b030930309203091030900308f0308e0308d0308c0308b0308a03089030880308703086030850308403083030820308103080,
  0x030b8030b7030b6030b5030b4030b3030b2030b1030b0030af030ae030ad030ac030ab030aa030a9030a8030a7030a6030a5030a4030a3030a2030a1,
  0x030d0030cf030ce030cd030cc030cb030ca030c9030c8030c7030c6030c5030c4030c3030c2030c1030c0030bf030be030bd030bc030bb030ba030b9,
  0x030e8030e7030e6030e5030e4030e3030e2030e1030e0030df030de030dd030dc030db030da030d9030d8030d7030d6030d5030d4030d3030d2030d1,
  0x032a6032a5032a4032390323203231030fe030fd030fc030fb030f6030f5030f4030f3030f2030f1030f0030ef030ee030ed030ec030eb030ea030e9,
  0x0338f0338e0337e0337d0337c0337b03357033510334d0334a033490333b033360332b0332703326033230332203318033140330d03303032a8032a7,
  0x04e1904e1804e1704e1604e1504e1404e1104e1004e0e04e0d04e0b04e0a04e0904e0804e0704e0304e0104e00033cd033c4033a10339e0339d0339c,
  0x04e5704e5604e5504e4f04e4e04e4d04e4b04e4504e4304e4204e3f04e3c04e3b04e3904e3804e3604e3204e3104e2d04e2a04e2804e2604e2104e1e,
  0x04e9804e9504e9404e9204e9104e8e04e8c04e8b04e8a04e8904e8804e8604e8504e8204e8004e7e04e7304e7104e6204e5f04e5e04e5d04e5904e58,
  0x04ec404ec204ec104ec004eba04eb604eb304eb004eae04ead04eac04eab04ea804ea604ea504ea404ea204ea104ea004e9f04e9e04e9c04e9b04e99,
  0x04ef204ef004eee04eed04ee504ee404ee304ee104edf04ede04edd04ed904ed804ed704ed604ed504ed404ecf04ece04ecd04ecb04eca04ec704ec6,
  0x04f3a04f3904f3804f3604f3404f3004f2f04f1d04f1c04f1a04f1104f1004f0f04f0e04f0d04f0a04f0904f0304f0104f0004efc04efb04ef704ef6,
  0x04f7304f7004f6f04f6904f5e04f5d04f5c04f5b04f5a04f5904f5704f5604f5504f5304f5104f5004f4f04f4e04f4d04f4704f4604f4304f3d04f3c,
  0x04fad04fab04fa104fa004f9d04f9b04f9a04f9804f9604f9404f9204f9104f8f04f8d04f8b04f8a04f8804f8604f8304f7f04f7c04f7b04f7604f75,
  0x04fe404fe304fe104fdf04fdd04fdb04fda04fd804fd704fd404fd104fd004fce04fcd04fca04fc904fc404fc304fc204fbf04fb604fb504faf04fae,
  0x0501f0501e0501a05019050160501405012050110500f0500d0500b05009050060500504fff04ffe04ffa04ff804ff604ff504ff304fef04fee04fe5,
  0x05055050500504f0504905048050470504605043050420504005039050360502d0502c0502b0502a0502905028050260502505024050230502205021,
  0x050b3050b2050ad050ac0509a050990509805094050910508d05085050800507d0507805076050750507405072050700506c050650505c0505a05056,
  0x050f9050f5050f4050ee050ed050e7050e5050e3050de050da050d8050d6050d5050d1050cf050cd050ca050c9050c5050c2050be050b7050b5050b4,
  0x0514305141051400513f0513c0513b0513a05137051320512a051210511f0511a05118051160511505114051120510905104051020510105100050fb,
  0x0516c0516b0516a05169051680516505164051620515c0515a0515405152051500514e0514d0514c0514b0514a051490514805147051460514505144,
  0x051970519605195051930519205191051900518f0518d0518c0518a05189051860518505182051800517c05178051770517605175051710516e0516d,
  0x051c5051c4051be051bd051b7051b6051b5051b4051b3051b2051b1051b0051ac051ab051aa051a9051a8051a6051a5051a4051a2051a00519d05199,
  0x051fa051f9051f8051f6051f5051f1051f0051ed051ec051ea051e9051e7051e6051e1051e0051dd051dc051db051d6051cd051cc051cb051c9051c6,
  0x05233052300522e0522a052290522705225052240521d052170521505214052110520e0520b0520a052080520705206052040520305200051fe051fd,
  0x0526f0526a052690526505264052630525e0525b05256052540524f0524d0524c0524b0524a0524705244052430523b0523a05239052380523705236,
  0x052aa052a9052a6052a3052a00529f0529c0529b0529405292052910528d052890528805287052830527f0527d052750527405273052720527105270,
  0x052dd052db052d9052d8052d7052d5052d2052cd052c9052c7052c5052c3052c1052c0052be052bc052b9052b5052b4052b1052af052ad052ac052ab,
  0x0530d05308053070530605305053020530105300052ff052fe052fa052f9052f8052f5052f3052f2052e7052e6052e4052e3052e2052e0052df052de,
  0x0534305341053400533f0533b0533a053390533805333053310532f0532a053240532305321053200531d0531a05319053170531605315053100530f,
  0x0537205371053700536f0536e0536905366053600535e0535c0535a0535805357053540535305352053510534d0534a0534905348053470534605345,
  0x053b3053b2053b0053ae053ad053a9053a8053a6053a5053a00539f0539a05398053960539305384053820537f0537b0537805377053750537405373,
  0x053e8053e5053e4053e3053e2053e1053df053dd053db053d9053d7053d6053d4053ce053cd053cc053cb053ca053c9053c8053c3053c2053bb053b6,
  0x0540d0540c0540b0540a0540905408054040540305401053fa053f8053f7053f6053f3053f2053f1053f0053ef053ee053ed053ec053eb053ea053e9,
  0x0544605442054400543e0543d0543c0543b0543905438054360542e0542d0542c0542b0542905426054200541f0541d0541b05411054100540f0540e,
  0x0548e0548c0548b0548a0548605484054800547d0547c0547b0547705476054750547305471054700546a054680545f054510544e0544a0544905448,
  0x054c8054c7054c4054c2054c1054c0054be054bd054bc054b8054b3054b2054af054ac054ab054a9054a8054a5054a4054a20549c05492054900548f,
  0x055310552f0552e0551605514055100550f055070550605504054ff054fd054fa054f2054ee054ed054e9054e8054e6054e5054e2054e1054d8054c9,
  0x05587055860558405583055800557e0557c0557b055630555d0555c0555705556055530554f0554c055460554505544055400553e055390553805533,
  0x055da055d4055c7055c5055c4055b6055b0055ae055ac055ab055aa055a9055a8055a70559f0559e0559d0559c0559a05599055980558b0558a05589,
  0x0564c0564205638056360563405632056310562f056290561b056180561705616056140560905606055fe055fd055f9055f7055e4055e3055df055dc,
  0x056bc056b6056b4056ae056a5056a2056a0056940568f0568a0568705686056800567a05678056740566c0566b0566a05668056640565b056500564e,
  0x05700056ff056fd056fa056f9056f3056f2056f0056ee056e3056e0056de056db056da056d8056d7056d3056d1056ce056c8056c3056c2056c1056c0,
  0x0574705742057400573b0573805737057300572d0572805727057260571f0571c057180571605713057120570f0570d0570b05709057080570405703,
  0x057ac057aa057a4057a3057a2057a0057930578b0578905788057820577f0576a05769057660576505764057610575905751057500574f0574e0574a,
  0x0580205800057fc057fa057f9057f7057f4057e3057e0057df057dc057d6057d4057d3057d2057ce057cb057c8057c7057c6057c3057c0057b3057b0,
  0x0585405852058510584b0584a05841058400583d0583a058350583405831058300582f0582a05824058210581d05819058150580b0580a0580605805,
  0x058b2058ae058ab058a80589f0589e0589c058970589305885058830587e058790587505872058700586b05869058620585e0585a058590585805857,
  0x058ec058eb058e5058e4058df058de058dc058d9058d8058d7058d5058d3058d1058cc058ca058c7058c5058c1058be058bb058ba058b9058b8058b3,
  0x0591c0591b0591a05919059180591605915059100590f0590b0590a0590905902058fd058fc058fb058fa058f9058f7058f2058f1058f0058ef058ee,
  0x059540595305951059500594f0594e059490594805947059440593e059380593705932059310592e0592d0592c0592b0592a05929059270592505922,
  0x059840598305982059810597d0597805974059730596e0596c0596a059690596805967059650596305962059600595d0595b0595a059580595705955,
  0x059d4059d3059d1059d0059cb059c9059c6059be059bb059ba059b9059b2059ac059a8059a5059a4059a30599d0599b0599905996059930598d0598a,
  0x05a3505a2f05a2905a2505a2005a1f05a1c05a1a05a1805a1105a0905a0305a01059ff059fb059f6059eb059ea059e8059e6059e5059dc059da059d9,
  0x05ad005acc05acb05ac905ac205ac105abe05abd05abc05a9b05a9a05a9205a7f05a6c05a6a05a6605a6205a5a05a4905a4605a4105a4005a3c05a36,
  0x05b5105b5005b4505b4305b4005b3e05b3605b3205b3005b2c05b2a05b2205b1605b0c05b0b05b0905afb05afa05ae905ae605ae305ae105ad705ad6,
  0x05b8305b8005b7a05b7805b7505b7305b7105b7005b6b05b6905b6605b6505b6405b6305b5f05b5d05b5c05b5b05b5a05b5805b5705b5605b5505b54,
  0x05bb005bae05ba605ba505ba405ba305ba205b9f05b9d05b9c05b9b05b9a05b9905b9805b9705b9505b8f05b8d05b8c05b8b05b8905b8805b8705b85,
  0x05bde05bdd05bdb05bd805bd405bd305bd205bd005bcc05bc905bc705bc605bc505bc405bc305bc205bc005bbf05bb905bb805bb605bb505bb405bb3,
  0x05c0505c0405c0205c0105bff05bfe05bfa05bf805bf605bf505bf305bf005bee05bec05beb05be905be805be705be605be505be405be205be105bdf,
  0x05c3b05c3a05c3905c3805c3105c2d05c2805c2405c2205c2005c1e05c1a05c1605c1305c1105c0f05c0e05c0d05c0b05c0a05c0905c0805c0705c06,
  0x05c6c05c6505c6405c6105c6005c5e05c5505c5305c5105c5005c4f05c4e05c4d05c4b05c4a05c4805c4605c4505c4105c4005c3f05c3e05c3d05c3c,
  0x05cbe05cbc05cbb05cba05cb805cb705cb605cb305cb105cac05cab05ca905ca805ca605ca105c9405c9105c9005c8c05c7905c7605c7105c6f05c6e,
  0x05d1705d1605d1505d1405d1105d0e05d0b05d0705cfd05cfb05cfa05cf605cf505cf005cef05ced05cea05ce905ce805ce105ce005cd905cc705cc5,
  0x05d8405d8205d7605d7305d6f05d6d05d6c05d6905d5c05d5305d5205d5005d4e05d4c05d4b05d4205d2905d2705d2205d1f05d1b05d1a05d1905d18,
  0x05dde05ddd05ddb05dd605dd305dd205dd005dcd05dcc05dc905dbd05dbc05dba05db905db805db705dae05dac05da205d9d05d9005d8c05d8b05d87,
  0x05e1605e1105e0c05e0b05e0605e0305e0205dfe05dfd05dfb05df705df505df405df305df205df105dee05deb05de805de705de605de505de305de1,
  0x05e5705e5505e5405e4e05e4c05e4705e4505e4405e4305e4005e3d05e3805e3705e3605e3305e3005e2f05e2d05e2b05e2505e1d05e1b05e1a05e19,
  0x05e8f05e8a05e8705e8405e8305e8105e7f05e7e05e7d05e7c05e7b05e7a05e7905e7805e7605e7505e7405e7305e7205e6405e6305e6205e6105e5f,
  0x05ed605ed305ed005ecf05eca05ec905ec805ec305ec205ec105eb805eb705eb605eb505ead05eab05ea705ea605ea005e9c05e9a05e9705e9605e95,
  0x05f0105eff05efe05efc05efb05efa05ef805ef705ef605ef405ef305ef105ef005eec05ee905ee805ee305ee205ee105ee005edf05edd05edb05eda,
  0x05f2d05f2905f2705f2605f2505f2105f1f05f1b05f1805f1705f1605f1505f1405f1305f1105f1005f0f05f0d05f0c05f0b05f0a05f0905f0405f03,
  0x05f6605f6205f6105f5d05f5c05f5905f5705f5605f5305f5105f4e05f4c05f4a05f4805f4505f4105f3e05f3c05f3805f3705f3505f3405f3105f2f,
  0x05f8c05f8b05f8a05f8805f8705f8505f8405f8305f8205f8105f8005f7f05f7c05f7905f7705f7305f7105f7005f6d05f6c05f6b05f6a05f6905f67,
  0x05fcc05fc505fc305fbd05fbc05fb905fb705fb405fb305fae05fad05faa05fa905fa805fa105fa005f9e05f9905f9805f9705f9305f9205f9105f90,
  0x060160601506012060100600f0600e05fff05ffd05ffb05ff805ff505ff105ff005feb05fe405fe005fde05fdd05fdc05fd905fd805fd705fd605fcd,
  0x060500604d0604b0604a060460604306042060410603a060310602f0602b0602a060290602806027060260602506021060200601d0601c0601b06019,
  0x0608406083060810607706075060700606f0606d0606c0606b0606a060690606806065060640606306062060600605f0605d0605a060590605506052,
  0x060b6060b5060b4060b3060b2060aa060a9060a7060a6060a3060a00609f0609b0609a060970609606094060920608d0608c0608b0608a0608906085,
  0x060f4060f3060f2060f1060f0060e8060e7060e3060e1060e0060df060de060dc060da060d8060d5060d3060d1060c7060c6060c5060bd060bc060b8,
  0x0612c061280612706121061200611f0611b0611a06115061110610f0610e0610d061090610806106061030610106100060fb060fa060f9060f7060f6,
  0x061620615f0615d0615a061590615806155061530614e0614d0614c0614b0614a061480614706144061420613f0613e0613d0613c061370613406130,
  0x06198061960619406191061900618e0618a06187061820617e061770617606175061740617306171061700616f0616e0616b06168061670616506163,
  0x061e6061e3061d0061cd061cc061cb061ca061c9061c8061c7061c6061c3061be061ba061b6061b2061ae061ac061ab061a9061a7061a40619a06199,
  0x0621a0621606214062130621206211062100620e0620d0620c0620a062090620806200061ff061fe061fd061fc061fa061f8061f7061f6061f4061f2,
  0x0624e0624d0624b06249062480624706241062400623f0623b06238062340623306232062300622f0622e0622a06226062210621f0621e0621d0621b,
  0x0629306292062910628a06289062840628306282062800627f0627e0627c0627906276062710626e0626806263062600625e0625b062580625506253,
  0x062ca062c9062c8062c7062c6062c5062c2062bd062bc062bb062b9062b5062b1062ac062ab062a60629e0629c0629b0629806297062960629506294,
  0x062f6062f5062f3062f1062ef062ee062ed062ec062e1062e0062dd062dc062db062d9062d8062d7062d4062d3062d2062d1062d0062cf062cd062cc,
  0x0634f0634d0634c063490633f0633e0633d0633a0632f0632b06328063270631f06319063110630c0630906308063070630206301062ff062fe062f7,
  0x0639806396063920638f0638e0638c063890638806383063800637b0637a0637706376063720636e0636b0636906368063670635c063570635506350,
  0x063cf063c9063c6063c4063c3063c0063be063bb063b5063b4063b2063ac063ab063aa063a9063a8063a7063a5063a3063a2063a1063a00639f0639b,
  0x0642d0642c06428064260641c0641706416064130640f0640d06406063fa063f6063f5063f4063ee063e9063e3063e1063db063da063d6063d2063d0,
  0x064a5064a40649e0649d0649a06495064930649206488064830647a06478064760646f064690646706460064580644e064420643e0643a0643606434,
  0x064e6064e3064e2064e1064e0064da064d8064d4064d2064ce064cd064c7064c5064c2064c1064bc064bb064b9064b2064b0064ae064ad064ab064a9,
  0x0653606535065340652f0652c0652b0652a06524065230651d0651c065180650506500064fe064fd064fa064f6064f4064f2064f1064ef064ec064e7,
  0x065700656c0656606563065620655e0655d0655906558065570655606555065510654f0654e0654d06548065450653f0653e0653b065390653806537,
  0x065ab065a7065a5065a4065a10659f0659c0659b065990659706591065900658e0658c06589065880658706583065820657806577065750657406572,
  0x065e5065e2065e1065e0065db065d9065d7065d2065cf065cc065cb065c6065c5065c4065c3065c1065bd065bc065b9065b7065b0065af065ad065ac,
  0x0661e0661c0661506614066130660f0660e0660c0660a066090660706606066030660206600065fb065fa065f1065ed065ec065e9065e8065e7065e6,
  0x066520664f0664b06649066440664306642066410663f0663c0663b066360663506634066310662f0662e0662d06628066270662506624066200661f,
  0x06688066870668406683066810667a066760667406673066700666f0666e066690666806667066660666506664066620665f0665e0665d0665906657,
  0x066c9066c7066c4066c1066bf066be066bc066b9066b8066b4066b2066ae066ab066a6066a2066a00669d06699066980669706696066910668e06689,
  0x0670306700066ff066fe066fd066fc066fb066fa066f9066f8066f7066f5066f4066f3066f2066f0066e9066e6066e0066dd066dc066da066d9066d6,
  0x06734067310672e0672d0672c0672b0672a0672806727067260671f0671e0671d0671b067170671606715067140670f0670e0670d0670b0670906708,
  0x06764067630676206761067600675f0675e0675c06759067560675306751067500674f0674e0674906746067410673f0673d0673a067380673706736,
  0x0679c0679a0679706795067900678c0678b0678906787067850677f0677e0677c0677706775067730677206771067700676f0676d0676a0676606765,
  0x067d3067d1067d0067cf067ce067ca067c6067c4067c1067c0067bb067b9067b8067b7067b6067b4067b3067af067a9067a6067a2067a1067a00679d,
  0x0681306804068030680206801067ff067fe067fb067f5067f4067f3067f1067ef067ee067ec067e9067e7067e4067e2067de067dd067da067d8067d4,
  0x068500684e0684d068480684606844068430684206841068400683d0683c068390683806834068320682b0682a0682906822068210681e0681706816,
  0x0689b0689706894068930688f0688d0688506883068810687f0687e06877068760687406867068630685f0685d0685c0685906854068530685206851,
  0x068cd068cb068ca068c9068c8068c6068c4068bc068ba068b9068b6068b5068b3068b1068b0068af068ad068a8068a7068a6068a2068a00689f0689d,
  0x0690c0690b0690806905069040690106900068fa068f9068f2068ef068ee068e7068e3068e1068e0068df068da068d8068d7068d5068d4068d2068cf,
  0x06954069530694a0693f0693d069390693606934069300692a0692806926069250692306922069210691c0691b0691a06919069120690f0690e0690d,
  0x0697e0697d0697c0697906978069770697506974069730696f0696e0696d0696b0696a069680696206961069600695e0695d0695c0695a0695906955,
  0x069cb069ca069c7069c3069c1069bf069be069bb069b4069b2069b1069ae069a7069a00699c0699b069980699506994069910698e0698a0698206981,
  0x06a0c06a0b06a0a06a0506a02069ff069fd069fb069f9069f2069ed069eb069e8069e7069e2069de069dd069d9069d8069d3069d0069ce069cd069cc,
  0x06a4606a4406a3d06a3a06a3906a3806a3606a3506a3006a2e06a2b06a2a06a2906a2306a2206a2106a1f06a1e06a1b06a1906a1706a1406a1306a12,
  0x06aa206aa006a9c06a9706a9006a8e06a8d06a8406a8006a7f06a7e06a7806a7306a7206a6b06a6606a6206a6106a5f06a5906a5806a4b06a4806a47,
  0x06b0506b0406afb06afa06aea06ae806ae406ae206adf06ade06adb06ada06ad306ad106ac306ac206ac106abb06ab806ab306aae06aac06aaa06aa3,
  0x06b5406b5306b5006b4e06b4c06b4906b4706b4306b3e06b3d06b3a06b3906b3806b3706b3206b2706b2306b2106b2006b1f06b1d06b1606b1206b0a,
  0x06b8b06b8a06b8906b8606b8406b8306b8006b7f06b7b06b7906b7806b7406b7306b6f06b6a06b6906b6606b6406b6306b6206b6106b5f06b5b06b59,
  0x06bcd06bcb06bc606bc506bc006bbf06bbc06bbb06bba06bb706bb506bb406bb306bb206bb106baf06bab06baa06ba406b9e06b9806b9606b9506b8d,
  0x06c3806c3706c3406c2406c2306c1b06c1706c1406c1306c1106c0f06c0806bf306bef06bec06beb06bdf06bdb06bd806bd606bd406bd306bd206bce,
  0x06c7d06c7a06c7306c7206c7006c6f06c6a06c6806c6206c6006c5f06c5e06c5d06c5c06c5a06c5706c5506c5006c4e06c4206c4106c4006c3f06c3e,
  0x06cba06cb906cb806cb306cb106cae06cab06ca206ca106c9b06c9a06c9906c9606c9306c9206c9006c8d06c8c06c8806c8606c8306c8206c8106c7e,
  0x06cea06ce806ce506ce306ce206ce106cdd06cdb06cda06cd906cd706cd506cd306ccc06cca06cc906cc506cc406cc106cbf06cbe06cbd06cbc06cbb,
  0x06d3d06d3b06d3806d3606d3506d3306d3206d2b06d2a06d2906d2506d1f06d1e06d1b06d1906d1706d1206d0c06d0b06d0406cf306cf106cf006cef,
  0x06d8e06d8c06d8806d8706d8506d7906d7806d7706d7406d6f06d6e06d6c06d6a06d6906d6606d6406d6306d5c06d5a06d5906d4506d4406d4106d3e,
  0x06dd906dd806dd506dd206dd106dcf06dcc06dcb06dc706dc606dc506dc006dbc06db806db506db206daf06dac06d9c06d9b06d9906d9606d9506d93,
  0x06e0a06e0906e0806e0706e0506dfc06dfb06dfa06df906df806df706df506df306df206df106dee06dec06deb06dea06de806de606de406de106dde,
  0x06e3a06e3906e3806e2f06e2e06e2d06e2c06e2b06e2906e2706e2606e2506e2406e2306e2106e2006e1f06e1d06e1b06e1a06e1906e1506e1306e0b,
  0x06e9006e8f06e8c06e8206e8006e7f06e7e06e7606e7206e6f06e6e06e6b06e6706e5f06e5c06e5b06e5806e5606e4e06e4d06e4a06e4306e3e06e3c,
  0x06ed406ed306ed106ecc06ecb06ec906ec506ec406ec206ebf06ebd06eba06eb706eb606eb206eaf06eaa06ea506ea206e9f06e9d06e9c06e9806e96,
  0x06f2b06f2306f2206f2006f1506f1406f1306f1106f0f06f0906f0606f0206f0106eff06efe06ef806ef706ef406ef206eef06eec06ede06edd06ed5,
  0x06f8006f7c06f7a06f7806f7406f7006f6f06f6e06f6d06f6606f6406f5f06f5c06f5b06f5806f5406f4506f4106f3f06f3e06f3806f3206f3106f2c,
  0x06fd806fd506fd406fc606fc306fc206fc106fc006fb906fb506fb306fb106faa06fa406fa306fa106f9706f9106f8e06f8806f8606f8406f8206f81,
  0x0701807015070110700f0700b0700907007070050700106ffe06ffa06ff606ff506ff306ff106fef06fee06fec06feb06fe406fe106fe006fdf06fdb,
  0x07089070850707d0707c07078070700706f0706b0706307058070510704c0703e07032070300702c0702807027070260701f0701e0701d0701b0701a,
  0x07104070fd070f9070f1070df070dd070d9070cf070cb070c8070bb070ba070b9070b8070b3070af070ae070ad070ac070ab07099070920708e0708a,
  0x07167071660716507164071620715c0715907156071550714e0714c0714907147071460713c0713607126071210711c0711a07119071140710f07109,
  0x071d2071d0071ce071c9071c8071c3071c1071be071b9071b1071ac071a80719f0719907195071940718f0718a07188071840717d0716e0716c07169,
  0x0722c0722a072280721b072100720d07206071ff071fe071fc071fb071f9071f5071ee071ed071ec071e7071e6071e5071e0071df071d7071d5071d4,
  0x072610725f0725d0725b0725907258072520724c0724b072480724707246072400723f0723e0723d0723c0723b0723a072360723507232072300722d,
  0x072be072b9072b6072b2072b1072af072ac072a7072a2072a00729607292072870728207281072800727e0727d072790727407272072690726707262,
  0x07317073160730a072fd072fc072f9072f8072f7072ed072ec072e9072e2072e1072e0072db072d9072d7072d2072d0072ce072c6072c4072c3072c2,
  0x0736a0736807363073570734f0734e07345073440733f0733e0733707336073340732f0732e0732b0732a0732907325073240731f0731d0731c0731b,
  0x073ce073cd073ca073c9073c8073c2073c0073bd073bb073b3073b2073a9073960738b0738907387073840737b0737a0737807377073750737207370,
  0x0742e0742a074290742607425074220740907407074060740507403073fe073f8073f5073f1073ee073ed073ea073e5073e3073e0073de073d6073d2,
  0x07473074700746f0746a07469074640746307462074600745f0745e0745c0745b0745a0745907455074410743f0743a0743607435074340743307432,
  0x074f1074f0074ee074e9074e7074e6074e3074e2074e0074dc074d4074cf074ca074bd074b0074a7074a20749f0749e0748b07489074830747e07476,
  0x0752b075280752607525075230751f0751e0751c0751a075180751507513075110750e0750d0750c07505075040750307501074f8074f7074f6074f2,
  0x0755b0755a0755907554075510754f0754d0754c0754b0754a0754907546075440753c0753b0753a0753807537075330753207531075300752f0752c,
  0x075890758707586075820757f0757807577075760757407573075700756f0756d0756b0756a075690756707566075650756407562075600755d0755c,
  0x075c7075c5075c3075c2075be075bd075bc075b9075b8075b5075b3075b2075b1075ab075a5075a30759d0759a07594075910758f0758e0758b0758a,
  0x0760d0760b0760907601075ff075fe075fc075fa075f4075f3075f2075f0075e9075e3075e2075de075db075d9075d8075d5075d4075d2075cd075ca,
  0x0766a07669076680766707662076610765c0765807656076520764c076480764707646076420763b076340763007627076240762207621076200761f,
  0x0769a076990769607693076900768e0768b076880768707686076840768307682076800767e0767d0767c0767b0767a076780767607672076700766c,
  0x076de076dc076db076d7076d6076d2076cd076ca076c8076c6076c3076c2076bf076ba076b9076b8076b7076b4076b0076ae076a60769e0769c0769b,
  0x077200771f0771e0771b0770c0770b0770907708077070770407701076fe076fb076f8076f4076f2076ee076ea076e7076e5076e4076e3076e1076df,
  0x0778e0778b0777f0777e077790776b07768077660776507763077610775b0775a0774707746077400773c0773a077380773707729077260772507724,
  0x077e7077e5077e3077e2077dc077db077da077d7077cd077c7077bf077bd077bc077bb077b9077b6077b3077b0077ad077ac077a5077a00779e07791,
  0x078640785d0784e078450783f0783a078340783207827078260782507821078200781507814078120780c07802077fc077f3077ef077ee077ed077e9,
  0x078b5078af078aa078a9078a7078a30789a078970789507893078910788e0788d0788c0788707886078810787c0787a07874078720786f0786c0786b,
  0x0791907912079110790e0790707901078fd078f4078ef078ec078e8078e7078da078d4078d1078d0078cb078ca078c6078c5078c1078be078bc078ba,
  0x07962079600795f0795e0795d0795a079570795607955079530795007949079480794707941079400793e0793c0793a079300792c0792b0792a07926,
  0x079b9079b3079b0079ae079aa079a7079a60799d0799b079940798f0798e0798d0798a079850798407981079800797f0797a079770796d0796807965,
  0x07a0807a00079fb079f0079ec079e9079e7079e6079e4079e3079e1079df079d8079d5079d2079d1079cb079c9079c1079c0079bf079be079bd079ba,
  0x07a4607a4307a4207a4007a3f07a3e07a3d07a3c07a3b07a3707a3207a3107a2e07a2007a1f07a1c07a1a07a1907a1807a1707a1407a0e07a0d07a0b,
  0x07a9307a9207a8807a8407a8307a8107a7f07a7d07a7a07a7907a7607a7407a7007a6b07a6907a6307a6207a6107a5707a5007a4f07a4e07a4d07a49,
  0x07ad207ad107acf07acd07acb07aca07ac807ac707ac507ac407ac307abf07aba07ab607ab007aaf07aae07aaa07aa907a9f07a9807a9707a9607a95,
  0x07aff07afa07af907af807af607af007aef07aed07aeb07aea07ae707ae607ae507ae307ae207ae107ae007adf07add07adc07ada07ad907ad507ad3,
  0x07b4807b4607b4507b3907b3607b3507b3307b2c07b2807b2607b2507b2007b1e07b1b07b1907b1807b1107b0f07b0b07b0a07b0807b0607b0407b02,
  0x07b8d07b8b07b8707b8607b7a07b7507b7407b7107b7007b6e07b6c07b6707b6507b5d07b5607b5407b5207b5107b5007b4f07b4d07b4c07b4b07b49,
  0x07bc907bc707bc607bc407bc107bc007bb807bb407bb107bad07baa07ba107b9f07b9e07b9d07b9c07b9a07b9907b9807b9707b9507b9407b9207b8f,
  0x07c2307c2107c1f07c1707c1407c1307c1207c1107c0d07c0707c0007bf707bf607bf307bed07be907be607be507be407be007bdd07bcf07bcc07bcb,
  0x07c7507c7307c6c07c6507c6407c6007c5f07c5807c5607c5407c5007c4f07c4d07c4c07c4307c4007c3f07c3e07c3d07c3807c3707c2b07c2a07c27,
  0x07cb107cae07cad07cab07ca807ca707ca507ca407ca207ca107c9f07c9b07c9807c9707c9507c9207c9007c8d07c8b07c8907c8307c8207c8107c7e,
  0x07cf807cf607cf407cf207cef07ce707ce207ce007cdf07cde07cdc07cd807cd607cd207cce07cca07cc507cc207cc007cbe07cbd07cb907cb307cb2,
  0x07d2b07d2207d2107d2007d1c07d1b07d1a07d1907d1807d1707d1507d1407d1007d0d07d0b07d0a07d0607d0507d0407d0207d0007cfe07cfb07cfa,
  0x07d5c07d5b07d5607d5007d4f07d4e07d4c07d4b07d4807d4607d4507d4407d4307d4207d3f07d3a07d3907d3507d3307d3207d3007d2f07d2e07d2c,
  0x07da207da007d9f07d9c07d9b07d9a07d9907d9307d8f07d8907d7d07d7907d7607d7507d7307d7207d7107d6e07d6807d6607d6307d6207d6107d5e,
  0x07dd207dd107dcf07dcb07dca07dc707dbf07dbe07dbd07dbb07dba07db807db707db507db407db207db107db007daf07dae07dad07dac07dab07da3,
  0x07e1207e0b07e0a07e0907e0507e0407e0107dfb07df407df207def07dec07de907de807de407de107de007dde07ddd07ddc07dda07dd807dd607dd5,
  0x07e4d07e4b07e4a07e4607e4307e4107e3e07e3d07e3b07e3a07e3907e3707e3507e3207e3107e2e07e2b07e2607e2307e2207e2107e1f07e1e07e1b,
  0x07e8a07e8907e8807e8307e8207e7f07e7d07e7c07e7b07e7907e7007e6d07e6a07e6907e6707e6607e5e07e5d07e5a07e5907e5607e5507e5407e52,
  0x07f5f07f5807f5507f5407f5107f5007f4e07f4d07f4c07f4707f4507f3a07f3807f3607e9c07e9b07e9607e9407e9307e9207e9007e8f07e8e07e8c,
  0x07f9a07f9407f8e07f8c07f8a07f8807f8707f8607f8507f8307f8207f7907f7807f7707f7507f7207f7007f6e07f6b07f6a07f6907f6807f6707f60,
  0x07fe107fe007fd507fd407fd207fcc07fca07fc607fc507fc107fbd07fb907fb807fb607fb207faf07fae07fa907fa807fa407fa307fa107f9e07f9d,
  0x080210801c0801908018080170801508012080100800c0800b08006080050800408003080010800007ffc07ffb07ff907ff307ff007feb07fe907fe6,
  0x0807708076080740807308072080700806f0806808062080610805f0805e0805a0805808056080520804a080460803f0803d0803b080360803308028,
  0x080ad080ac080aa080a9080a5080a2080a10809d0809b0809a0809808096080930808c0808b08089080870808608085080840807f0807e0807d08079,
  0x080fc080f8080f4080f1080ef080e5080e4080e1080de080dd080db080da080d9080d6080ce080cc080c6080c4080c3080ba080b4080b2080b1080af,
  0x081540815308151081500814e0814b081460813e0813908133081310812f08129081230811b0811a0810a081090810808107081060810508102080fd,
  0x0819d0819c0819a08195081930818f0818a081880818308182081800817f0817a08179081780817408171081700816e0816b08166081650815f08155,
  0x081da081d9081d8081d3081d1081cd081c9081c8081c6081c2081c0081bf081be081bd081ba081b8081b5081b3081b0081a9081a8081a4081a3081a0,
  0x0820e0820d0820c0820a082090820808207082050820208201081fe081fc081fb081fa081f4081f3081ed081ea081e8081e7081e5081e3081e0081df,
  0x082590825808247082400823908238082370823608235082330822e0822c0822b0822a082290821f0821e0821c0821b0821808217082160821208210,
  0x082a50829f0829d08299082920828d0828b0827e08278082770827608272082710826f0826e0826b0826a082680826608264082620825f0825d0825a,
  0x082e3082e1082df082de082dc082db082d9082d7082d4082d3082d2082d1082c5082bd082bb082b9082b8082b3082b1082af082ad082ac082ab082a6,
  0x08328083230831c0831808317083160830e08309083060830508304083030830208301082fb082fa082f9082f4082f3082f1082eb082e7082e6082e5,
  0x0837f0837c0837b083770837508373083620835808352083500834f0834a083490834508340083390833808336083350833408332083310832f0832b,
  0x083ce083cc083ca083c7083c5083c1083bd083b5083b1083ab083aa083a8083a2083a00839f0839e0839a08396083930838e0838a083890838708385,
  0x0840e0840d0840c0840b084070840408403083fd083fb083f7083f6083f4083f2083f1083f0083ef083eb083e9083e0083df083dc083d8083d6083d3,
  0x0846c0846b08469084660846308462084610845b084570844e0844908448084460843d0843c0843808435084310842c0842a08429084220842008413,
  0x084bc084bb084b9084b8084b4084b2084ad084a10849f0849c0849908494084900848b08484084820847a084790847708475084710846f0846e0846d,
  0x0851408513085110850608500084ff084fc084f4084ee084ec084dc084da084d9084d6084d1084d0084cd084cb084ca084c9084c6084c4084c1084bf,
  0x08559085580855708555085530854e0854b0854a08549085480854308541085400853d085350852d0852c08526085210851f0851a085180851708515,
  0x085a8085a6085a40859c0859b08599085970859408591085900858a085880858708584085800857e085770856d0856b0856a0856908568085630855a,
  0x085fa085f9085f7085ea085e9085e5085e4085dd085dc085d5085d0085cf085cd085c9085c1085ba085b9085b0085af085ae085ac085ab085aa085a9,
  0x0865e0865c0865a0865508654086500864e0864d0863f086300862f0862d086220861a0861708616086130860b0860a086070860608602085fe085fb,
  0x086cb086c9086c7086c6086c4086b6086b0086af086ab086aa086a9086a4086a308695086930868c0868b0868a0867b08679086710866b086670865f,
  0x0870a087090870808706087030870208700086fe086fb086f9086f8086ef086ee086ed086ec086e9086e4086df086de086db086d9086d4086ce086cd,
  0x0876608763087600875f087590875708755087530874e0874c0874b087490873f0873b087370873408729087250871c0871a0871808712087110870d,
  0x087d2087d0087cb087c7087c6087c4087c0087bd087bb087ba087b3087af087ab087a20879f0878d087820877f0877808776087740876e0876a08768,
  0x0883b088390883608831088270882308822088210881608815088110880f0880e0880d0880708805087fe087fb087f9087f7087f6087f2087ef087e0,
  0x0887e0887d088770887508872088700886b088680886308862088610885e0885d0885b088590885708853088520884d0884c08846088440884208840,
  0x088c3088c2088c1088bf088b7088b5088b4088b1088b0088ae088ab088a4088a20889e088990889708896088920888d0888b0888808882088810887f,
  0x089070890408902088fe088fd088fc088f9088f8088f5088f4088f3088f2088e8088e1088df088dd088dc088d9088d8088d5088d4088cf088c5088c4,
  0x08964089600895f0895e089560894d0894c0894408943089410893b08938089360892b0892a089250891e0891d0891c0891308912089100890c0890a,
  0x089a6089a10899a089980899708996089930898f0898b0898a08988089870898608983089810897f0897e0897708974089720896f0896d0896a08966,
  0x08a0808a0308a0208a00089f8089f4089e7089e6089e3089dd089dc089da089d2089c0089bf089bd089ba089b3089b2089af089ac089aa089a9089a7,
  0x08a3c08a3b08a3a08a3708a3608a3408a3308a3108a2d08a2a08a2508a2308a1f08a1d08a1b08a1808a1708a1608a1308a1208a1008a0e08a0c08a0a,
  0x08a7908a7308a7208a7108a7008a6e08a6d08a6c08a6b08a6908a6608a6308a6208a6008a5e08a5b08a5508a5408a5208a5108a5008a4808a4608a41,
  0x08aad08aac08aa808aa708aa608aa508aa408aa308aa108aa008a9e08a9a08a9808a9508a9308a9108a8d08a8c08a8908a8708a8508a8408a8208a7c,
  0x08ae408ae208ae108ae008adf08ade08adc08adb08ada08ad608ad208acf08acd08acc08acb08ac708ac408ac208abf08abe08abc08ab908ab208ab0,
  0x08b1908b1708b1608b1408b1008b0e08b0c08b0708b0408b0208b0108b0008afe08afa08af808af708af608af308af108aee08aed08aeb08ae708ae6,
  0x08b5f08b5c08b5b08b5a08b5808b5608b5308b4f08b4e08b4c08b4908b4108b3e08b3908b3308b2c08b2b08b2808b2608b2108b2008b1d08b1b08b1a,
  0x08c3a08c3708b9a08b9908b9608b9308b9208b9008b8e08b8c08b8a08b8308b8008b7f08b7d08b7708b7408b7208b7108b7008b6f08b6c08b6b08b66,
  0x08c8c08c8a08c8908c8508c8208c7c08c7a08c7908c7808c6c08c6b08c6a08c6208c6108c5a08c5508c5008c4e08c4c08c4a08c4808c4608c4108c3f,
  0x08cb708cb608cb408cb308cb208cb008caf08cae08cad08cac08cab08caa08ca908ca808ca708ca208ca108ca008c9e08c9d08c9808c9408c8e08c8d,
  0x08ce308ce208ce008cde08cdc08cdb08cda08cd308cd108cce08ccd08cca08cc808cc708cc408cc308cc208cc108cc008cbf08cbd08cbc08cbb08cb8,
  0x08d6408d1608d1408d1308d1208d1008d0f08d0d08d0b08d0a08d0808d0708d0508d0408cfd08cfc08cfb08cfa08cf408cf008ced08cea08ce608ce4,
  0x08dd608dcf08dcc08dcb08dc208dbe08dba08db308da808da308d9908d8a08d8508d8108d7708d7608d7408d7308d7108d7008d6d08d6b08d6708d66,
  0x08e3008e2a08e1f08e1e08e1d08e1008e0f08e0a08e0908e0808dff08dfc08df508df308def08deb08dea08de808de308de108ddf08ddd08ddb08dda,
  0x08e8708e8508e8408e8108e7c08e7608e7408e7208e6408e6308e6008e5f08e5908e5508e5008e4c08e4a08e4908e4808e4708e4408e4208e3508e34,
  0x08ed208ecf08ecd08ecc08ecb08eca08ec808ec608ec508ebe08eb108eb008eaf08eac08eab08eaa08ea108e9908e9408e9308e9108e8d08e8b08e8a,
  0x08f1f08f1d08f1c08f1b08f1908f1508f1408f1308f1208f0c08f0a08f0908f0508f0308efe08efd08efc08efb08ef808eeb08ee308ee208edf08edb,
  0x08f6308f6208f6108f5f08f5c08f5708f4e08f4d08f4c08f4908f4608f4508f4408f4208f3f08f3e08f3b08f3908f3808f3308f2f08f2a08f2908f26,
  0x08fd108fce08fc508fc408fc208fbf08fbc08fbb08fba08fb708fb208fb108fb008faf08fae08fad08fa808fa708fa308f9f08f9e08f9c08f9b08f64,
  0x0900d0900b090060900509003090010900008ffd08ffa08ff908ff808ff708ff408ff008fef08fed08feb08fea08fe908fe608fe508fe208fda08fd4,
  0x090360903509032090310902e09027090230902209021090200901f0901e0901d0901a09019090170901609015090140901309011090100900f0900e,
  0x0905c0905909058090560905509054090530905209051090500904f0904e0904d0904b0904a09049090470904509042090410903e0903c0903909038,
  0x090830908209081090800907f0907d0907c0907a09078090770907609075090720906f0906e0906d090690906809067090650906309061090600905e,
  0x090ed090e8090e4090e2090e1090de090db090ce090ca090c1090b8090b5090b1090af090aa090a8090a6090a3090910908f0908a090890908709084,
  0x091650916309162091580915609154091520914e0914d0914c0914b0914a0914909132091300912d0912709119091150911209102090fd090f7090f5,
  0x091b5091b4091af091ab091aa091a4091a20919c0919709192091900918d0918b09189091870918209178091770917509173091720916c0916a09169,
  0x091df091de091dd091dc091db091da091d8091d7091d6091d1091d0091cf091ce091cd091cc091cb091c9091c8091c7091c6091c1091c0091ba091b8,
  0x092340922c092290921e092150921409211092100920e0920d0920a09206091ff091fc091f6091f5091ee091ed091e7091e6091e5091e4091e3091e1,
  0x09271092670926609264092620925e0925b0925a092590925709251092500924e0924b09249092480924509244092400923f0923c0923a0923909237,
  0x092d5092d3092d2092d0092cf092b9092b7092ad092a70929c0929b0929a0929809296092950929309291092880928509283092800927e0927809277,
  0x0931d0931a0931909318093100930f0930609302092ff092fc092fb092fa092f9092f8092f3092f2092ed092ea092e9092e7092e4092e0092d9092d7,
  0x0935b0935709356093540934d0934b09348093440933b0933a09335093320932f0932e0932c0932b093280932609325093230932209321093200931e,
  0x093d0093c8093c6093c3093b9093b0093ae093ad093ac093a7093a40939a0939709396093940938c0937e0937c09375093700936e0936c093600935c,
  0x0943609435094310942b094210941a09419094180941409413094100940709403093f8093e8093e5093e4093e1093de093dd093d8093d7093d6093d1,
  0x09577094810947f0947e0947d0947c0947709475094700946a09462094600945e0945b0945a094530945209451094480944509444094410943a09438,
  0x095b2095ad095a8095a7095a5095a4095a3095a2095a0095990959809596095940959309592095910958f0958b0958a0958909587095830958209580,
  0x096320962f0962e0962a09628096210961c095e5095e2095e1095dc095d8095d6095d5095d4095cd095cc095ca095c7095c3095be095bc095bb095b9,
  0x09672096700966c0966a09666096650966409663096620965f0965e0965d0965c0965b096500964f0964d0964c0964b0964409642096400963f0963b,
  0x096a00969d0969c0969b09699096980969709695096940968f0968e0968d0968b0968a0968809686096850967d0967a0967809677096760967509673,
  0x096cc096cb096c9096c7096c6096c5096c4096c1096c0096bc096bb096b9096b8096b7096b6096b4096b2096b1096b0096af096aa096a8096a7096a3,
  0x0970809707097060970409700096fb096f9096f7096f6096f2096f0096eb096ea096e8096e3096e2096dc096db096d9096d6096d5096d1096ce096cd,
  0x0974409743097420973e0973d0973b09739097380973309732097300972a09727097240971e0971c097190971609713097110970f0970e0970d0970a,
  0x0977909774097710976d0976b097690976809766097640976209761097600975e0975c09759097560975509752097510974f0974d097490974809746,
  0x097cb097c8097c6097c3097b4097b3097ad097ab097a8097a6097a3097a00979c09798097900978f0978d0978b097860978509784097810977c0977a,
  0x0981809817098130981209811098100980f0980c098080980609805098030980209801097ff097fb097f6097f5097f3097f2097ee097ed097dc097d3,
  0x098650985e0985b098580985709855098540984f0984e0984d0984c0984b098460983d0983c0983b0983809837098340982d0982c09824098210981a,
  0x098ef098ee098ed098eb098e9098e2098df098dc098db098c6098c4098c3098b6098b1098af098aa098a8098740987309871098700986f0986b09867,
  0x0992e0992c09928099270992409921099200991e0991d09918099140991309912099100990c0990a099090990509903098fe098fd098fc098f4098f2,
  0x099b4099b3099ae099ad099ac099a8099a50999e0999909998099970999609957099550995209951099500994c0994b0994909945099420993e0993d,
  0x09a0509a01099ff099fb099f8099f2099f1099ee099ed099e2099df099dd099db099d8099d5099d2099d1099d0099c8099c6099c5099c4099c1099bc,
  0x09a6509a6409a6209a5f09a5b09a5a09a5709a5509a4e09a4d09a4509a4309a4209a4009a3e09a3709a3009a2b09a2809a1909a1309a1209a0f09a0e,
  0x09aeb09aea09ae609ae309ae209adf09ade09adc09ad909ad809ad409ad309ad109acf09ac409ac009abc09ab809ab009aad09aa809a6b09a6a09a69,
  0x09b3c09b3b09b3209b3109b2f09b2e09b2a09b2909b2809b2709b2509b2309b2209b1f09b1a09b1809b0609afb09af709af409af109aef09aee09aed,
  0x09b9709b9609b9309b9209b9109b8f09b8e09b8309b7509b7409b7209b6f09b5a09b5809b5409b5109b4f09b4e09b4d09b4509b4409b4309b4209b41,
  0x09be309be209be109bdb09bd609bd409bd209bd109bcf09bca09bc909bc609bc009bbb09bb909bb409bb109bae09bad09bab09baa09ba809ba009b9f,
  0x09c2d09c2509c2409c2109c1b09c1509c1409c1309c1209c1009c0d09c0c09c0a09c0909c0809c0609c0409c0009bf509bf209bf109bf009be809be4,
  0x09cf009cec09ceb09ce909ce709ce509c7809c7609c6709c6009c5a09c5709c5209c4809c4709c4609c3e09c3b09c3a09c3909c3209c3009c2f09c2e,
  0x09d4409d4109d3f09d3e09d3b09d2c09d2b09d2a09d2809d2609d2309d1f09d1b09d1509d1209d0e09d0909d0809d0709d0609d0309cf609cf409cf3,
  0x09dab09da909da409d9a09d8f09d8909d8709d7a09d7209d7009d6f09d6c09d6b09d6409d6109d6009d5e09d5d09d5c09d5909d5109d5009d4809d46,
  0x09e1b09e1a09e1909dfd09dfa09df909df809df209def09ded09de609dd909dd309dcf09dc609dc409dc209dc109dbb09dba09db809db409db209daf,
  0x09eb909eb809ead09eaa09ea909ea609ea509e9f09e9d09e9709e9509e9309e9209e9109e8c09e8b09e8809e8109e7f09e7d09e7909e7809e7509e1e,
  0x09eef09ee809ee509ee009ede09edd09edc09edb09ed909ed809ed409ed209ed109ed009ecf09ece09ecd09ecc09ec409ebf09ebe09ebc09ebb09eba,
  0x09f5f09f5409f5209f4f09f4e09f4b09f4a09f3e09f3b09f2c09f2109f2009f1509f1309f0e09f0809f0709efd09efc09efb09ef909ef709ef609ef4,
  0x0fa130fa120fa110fa100fa0f0fa0e0f9dc0f92909fa009f9d09f9c09f9509f8d09f7709f7609f7209f6c09f6a09f6709f6609f6309f6209f6109f60,
  0x0fa2b0fa2a0fa290fa280fa270fa260fa250fa240fa230fa220fa210fa200fa1f0fa1e0fa1d0fa1c0fa1b0fa1a0fa190fa180fa170fa160fa150fa14,
  0x0ff160ff150ff140ff130ff120ff110ff100ff0f0ff0e0ff0d0ff0c0ff0b0ff0a0ff090ff080ff070ff060ff050ff040ff030ff020ff010fa2d0fa2c,
  0x0ff2e0ff2d0ff2c0ff2b0ff2a0ff290ff280ff270ff260ff250ff240ff230ff220ff210ff200ff1f0ff1e0ff1d0ff1c0ff1b0ff1a0ff190ff180ff17,
  0x0ff460ff450ff440ff430ff420ff410ff400ff3f0ff3e0ff3d0ff3c0ff3b0ff3a0ff390ff380ff370ff360ff350ff340ff330ff320ff310ff300ff2f,
  0x0ff5e0ff5d0ff5c0ff5b0ff5a0ff590ff580ff570ff560ff550ff540ff530ff520ff510ff500ff4f0ff4e0ff4d0ff4c0ff4b0ff4a0ff490ff480ff47,
  0x0ffe50ffe40ffe30ffe20ffe10ffe0]

/-- `index_pointer_jis0208_0` (lib/whatwg/encoding/indexes_pointer.cpp:14), 7326 entries. -/
def ptr0Jis0208 : Table := ⟨20, 7326, ptr0Jis0208Data⟩

/-- Rows of `index_pointer_jis0208_1`. -/
def ptr1Jis0208Data : Nat := pack 480 [
  0x01eb01ea01e901e801e701e601e501e401e301e201e101e001df01de01dd01dc01db01da01d901d801d701d6003f003e00b6000c003d004a000e0057,
  0x023602350234023a020d020c020b020a020902080207020602050204020302020201020001ff01fe01fd01fc01fb01fa01f901f801f701f601ed01ec,
  0x026402540253025202510250024f024e024d024c024b024a0249024802470246024502440243024202410240023f023e023d023c023b023902380237,
  0x0283028202810280027f027e027d027c027b027a0279027802770276027502740273027202710270026f026e026d026c026b02690268026702660265,
  0x048504840483048204810480047f047e047d047c00af04ab04a9004d0065004c004b00b00023002400b500b40028002700260025001c001d026a0284,
  0x00870021009904bf004600a400a204bb00780077009d008d009c008c008b008a006a00670069006821c321c221c121c021bf21be21bd21bc21bb21ba,
  0x046e046d046c046b046a04690468009b04c0009a007a0079007c007b00a100a000450044009e0041009f00a300a5004704ba00a700a6007d007e0088,
  0x029a02a302a802ad029802a1029602a2029702a00295029f0294029e0293029d0292047b047a0479047804770476047504740473047204710470046f,
  0x00490058005900bb005b005c005a005d005e0063006400610062005f006002a702b102ac029c02a602b002ab029b02a402ae02a9029902a502aa02af,
  0x011c011b011a04a804a7002c002b006b0066003a003900380037003600350034003300320031001a00190018001600020001000000b100b200b30048,
  0x013a0139013801370136013501340133013201310130012f012e012d012c012b012a0129012801270126012501240123012201210120011f011e011d,
  0x015801570156015501540153015201510150014f014e014d014c014b014a0149014801470146014501440143014201410140013f013e013d013c013b,
  0x017d017c017b017a0179017800150014000b000a016c016b016a0169016801670166016501640163016201610160015f015e015d015c015b015a0159,
  0x019b019a0199019801970196019501940193019201910190018f018e018d018c018b018a0189018801870186018501840183018201810180017f017e,
  0x01b901b801b701b601b501b401b301b201b101b001af01ae01ad01ac01ab01aa01a901a801a701a601a501a401a301a201a101a0019f019e019d019c,
  0x04ae04ad04ac04b304b204b100130012001b000501cd01cc01cb01ca01c901c801c701c601c501c401c301c201c101c001bf01be01bd01bc01bb01ba,
  0x04aa049c049d049904980497049b049a04b404b504b604a60490048f048a049504870496048e0494048c049204930489048b04880491048d04b004af,
  0x0a300c8b07361147080f11460cc11145205c0f2f10a30aec0f27078d121f0b65114406e905ee114310460ee306590aea099b0aeb0fc70a000cd505cd,
  0x0de809e111500c07104410a0114e114d076c06fe0df21077137b101208c107fa0652114c0aed114b1a980f7e08940dd80e0a078e0e08114a11491148,
  0x115d115f0b310a610b30115a1159115810a10d1b07b507b407b30fbd05c808c311570f7f11561155115405820940110d110e05c708af08b005fd1153,
  0x0744205f205e0df7116408620cc207d9065b116205ab10c60c62205d1163116100170ba80ee411600c3b09b009b10f16115b115c068d0930078f115e,
  0x065c0c4b102b09410a620d1c05ad116b0c7d0d0a065d09e209b220610b1010c70e6d11670e3f0d581188068e07900e630f09074508b105ac11652060,
  0x2065116f1176206620631173116e09e310c82064116d117506ff09b308c41170116c0f28065f117211741171131b1169097b116811661045116a2062,
  0x11800fbe0b1111790f4a117c117e117b0c2c1178117d117f117a20670a7a205506810c22082b0f45109c0b1208c50efd0fc4131c065e07b705ae07b6,
  0x086411860ca80f5c2069118a0a23206b118208c608c711840d74118f17480e2f08950bf111901187206a118d06530f5d11890ec50e23118e0a4b1181,
  0x076d119a080b0d1e0c230a0e206d119908650d1d11971198119411950f3d05af11961192206c1191206e2068086307fb1104118c10b61185118b1183,
  0x11a611a811a510a2207111a40f9807b80c1b0da411a111a007e411a3082c0aa40951119e11a2119f104a0952119c0ea8099c206f08590f80119d119b,
  0x088605d511b911b811b611b711b411b51002102c11b30aa511b2117711af11b011b10a3d11ac064c11ae11ad076e0f3511aa11ab207011a911a70bed,
  0x08060c330f2907bb11c110fe08c90e5d11c011bf0bd30df3207311bd06f00d7511bc11ba09e40d5d0ff111bb091d207208c80ba907b90cd60a63082e,
  0x0d7611d111d011cf0ee911cd0fe611cc11ce070020740a150aee11cb11ca11c90f8c11c819a311c7095311c5098a11c6061e0dd711c311c208660d4c,
  0x11df11de20760dd911dd0c790a8f0fa911db07da1e7e11da12220d7710a40cd711d90a8111d80b69207511d710c9101311d6097011d211d411d311d5,
  0x11e90d9511e811e7107f11e60f390e6e0a9010d8207711e4082d11e511e3070206fb0b9b0f1911e20b320d7811e10e520a7706390dc107bc11e006a9,
  0x0bee11f211f406df11fa0aef0f0a11f111f30e40096b086811ef09130f8111f011eb0bcf11ee11ed097c0c2411ec0d1f091e09b411ea0867098b0b6a,
  0x1203207a06aa120108cb120210ee10ca2127120011ff09140d6f0a9c207910d9066008ca207810b411f811f911fc11f7109211fb085306bf11f511f6,
  0x1011207c100708cc0a24120e120d120c120b08210704120807e512070b6b120a0f5412060aa6207b0fdc070312050da51d3612040f46102d0cf50fa1,
  0x0baa0a64121c0db405c607fd0eb3121b121a121912180e8c207e121707be0aa70bf8121609890f97065a12151213121412121210207d120f0f5e0dec,
  0x122706541228107807880c25207f074605d605eb1225122408280bab12230f990e410c8c0de307bd0c6b0c310e8d12210e6f122008b20aa8121d121e,
  0x0a6e0a460e700bef102e079109420fbf1231099d07a5123008882081122f122e061d05f80b42122c122d122b088708cd10b7122a2080101a122907bf,
  0x06c10780123b123a09b5091506eb05e509b60a010c630661123712390aa907c00c7b0c7c123807fc089608ce0bf00602123420820e710a9d0a3e0a31,
  0x0f5f10e7123d08b4123c12400f1a0b44079212421241123f123e073712430e8e0f9507f81244082208cf0d5e108008d00fe70da605e40d18077f0916,
  0x125e12552084124d1252124612481105097d208512531251124f0fe80897124e124b125012470fcc124a124c0a3f0a4712490dd21245091f08b30d21,
  0x12690d46126712680fb40aaa12631262126a05d812610955125a12541259125d0ed90586125f05d71260125606ac097612791258125c2086125b1257,
  0x1281127c126d1276127012731272082f100d126e0aab12710c6c126c0c40126b127412750aac102a126f058312650d7912640b13094305f320871266,
  0x1286128c12c01287128906030809128007c107810bf2128312850869127b127f06e0074707061277127e0cd8127a08d1128420880bd012821278127d,
  0x129f0748129c06f5129512940bd805fc129a1298129712990b01129d067b129205f20aad128f128d06620c8d129012911293128e128b09b71288128a,
  0x09b80a4511c412b312b212b112b012af12ad12aa12ac12ae12ab12a812a912a712a60e0c12a312a412a512a206c012a012a10e690dca0f1b129e129b,
  0x0caa0830096c059612c20d7112c112be12bf12bd061f086a12bc12bb12b912ba12b80f4d12b612b70920089812b50b4105b0093112b40c9f05d90690,
  0x208b12d312d206bb08d312d012cf083212ce12cb0b4512cd0d1312c90c8e208a093212cc208908d2094e12c812c50f8207e6097112c712c612c412c3,
  0x12de0c4112dd12da0c4c086b0da70fa4097807490e300a020b0212dc0ee505c90e0b12db12d712d912d80af00faf208c208d12d612d512ca12d112d4,
  0x12e80b3312e012e40d4d063512e209560d060e6a0d7b0d600d7a12e60bd912e3069110c20f2a12e709730d5f0af10f6006201e7a07070d2212e112df,
  0x12f912f612f712f5091712f312f40af206920ca012f20f36093312ef12ed12ea12f00f1c209112f112ec0f9a12eb20900cff0c1c0f5512e907c20a75,
  0x101413050c3c0a6f122606ab104313040663209213030f3e13021301130012ff12fd12fe0d140e3705ce0b7d12fc0bf30b3409b912f812fa12fb12ee,
  0x20952094131113120d7c130e0fa620930833130f0bf413100f610dd5074a0621130c130b05b1130a0a03063a130913080ee60c3d0d4e0c6413070fdd,
  0x0d610f830c422097131d131a13810fd8104c076f13220df80ffa0e8f0df4131908d413180d720a9e0f2013160c8013170aae1315063b209613131314,
  0x1328132a0fe513271329058405b309bc05da05890ec00fee1320070805f713211324132305b20b6c0899059a09ba09bb131f0aaf095720980fb0131e,
  0x1343086c13350a04133606641334133713330ec113320e310fe4132c13310ee713300934132d0e1f10ef132b0ab0132f132e08b50f4713250b141326,
  0x134c0c3509e52099134b08d5134a09bd13481347134913461345134206040d1513440af31341133f1340074b133e133d133b133a13380cbf1339133c,
  0x0cc3070a0a480d7d08d709fe07090bf605a30a3205e60c6d135713561355135313521351137813500c36134f06d3134e089a075f0ffb08d609c5134d,
  0x0701135e0ee8135c135b0fd20dc7074c135a0a2d209a0a70104d135906650ab1062206ad095807931358102f0a050bac07890a0b0f62077005990d23,
  0x13680a160bad0f040a400c4d09e60b6413660cd91367136510a5209d13640b1615d60dfe13601363135f13610666098c13620b15070b209c135d080c,
  0x137207de0df50ea90b370de90b0f0a25137113700a4907db136f1009136e136d209e0ab50bae136c0ab40ab30da8136b0b350c3705b4136a13690ab2,
  0x0bda209f06491380137f074d137e137d137c099e0dcb137a137910810bf70a110d620c2d0d4f1375081213761377137409be064d0dc40813137307a6,
  0x13910b55138c0a7b138d0d7e20a10f630f64138e1390138b068207c30db2138a1389138713881385138320a007381386138406d40c4f0fd11382073d,
  0x13a513a613a313a2094420a613a10b56139420a3139e1079139f139d13a020a50f6520a2139913951396139a139b139c139306ae1392139813970977,
  0x07a708d9094508d80c020a8b0a4a0baf13b413b313b113b220a913b0073913af13ab13ae10cb20a820a713ad13aa13a913a713a813ac138f0d7f13a4,
  0x13be13bd0cdb07590c500b8b09c00b460d2413bc13b913ba0cda13bb074e13b80e720eea09bf07e70c82070508da13b70e160fcf13b6089b094613b5,
  0x13cd074f1030104b088913cb070d08db13ca13c90e020f2c070c13c70f2b13c60e5913c513c30fb613c413c20fa513c80f0c13bf13c013c10f840af4,
  0x13d406c213d213d310f010dc13d10e2413d013cf104e08de0a9505a40d26089c094f0d7013ce0eeb08dd0d500f660d250a9f0ab70e900ab608dc0cdc,
  0x114213e80f2d13e510f113e40f480df013e30e090693086d13e20d27062313e113df13de13e013dd13dc13db13d513d913da0ab80ecf13d613d813d7,
  0x07c513ef205b13ee0ca10eba13ed07c40cde20ab0a2e13f213ec13eb089d088a101820aa0d280cab08df0f1313ea05db0cdd079413e90dea09f91152,
  0x083513fb13fc0b6d063c13fd0e91101b13fa13f906050ab913f80eda0cdf0ec6095920ac0eb6083413f713e613e713f613f513f40d8d13f313f113f0,
  0x07500ebb0b17076214080d4720ad0ce00db60eaa14070a820f0b140608b714051402140314040db50a650d6314000aa008b6108c13fe13ff14010c51,
  0x14110c5209c210cc141814130eec14190d731414141c141614100929140a140c0e03140d143e0694140b0cc420ae140e063d0f860f8509c114090df9,
  0x09350cac1428142606971412142220af141e142c0aa108e007c7142510dd1423142414271429141f141d141707c6141a0695141506240b6e141b0795,
  0x0e0d14370618070e103108b8143314311435143406961436142e0d29143820b10a0620b014321430142d1421083606e10c2607c8142a142b14200655,
  0x14490bfa20b5144e0c43099f142f0bf91439143b05b520b20b8c092a144220b3143c110a0dcc14400af5143f0d80143a100e1441143d140f0e92058e,
  0x1452145a145720b7145920b8145814531454144c20b4070f05870807144420b605b61450144f102410251445144b0a4c1448144d144a0a2f14471446,
  0x146a1463145d146605b71464109d146206af0838146507100fc81467146814611460145f0f5614690b18144308e10c53145509e71451145c145b1456,
  0x1476147714790936147b147a0711147c064e086e1474146e147308390da90f1d1470146b20b9146c146f147210de0c1d1471146d10321064145e0837,
  0x0b8d05a0148e20ba069906830b6f0a66148c148d0f57148b148a148914851488148614871483086f1478148214840ce1148014810698147f1475147d,
  0x149c1499149b0c6e0f140c441498095a0a330e931c620bb114970a910f87100a089e0c541496149514940771149314920bb01491085414901bac148f,
  0x0f6714fa0e9520bb0c6f0e6514b50b9f08e214a40d8114a714a314a210650e1714a00abb14a6149f07720aba14a1149e0e940eed05980f1e149d149a,
  0x0b0406e206c307a90e2514b00abc0b9c08e314a814a50c7007a814a9069a14ab0e4214b114b214b614af14b414ad0c8f14b30cc5063e14aa0fc00d2a,
  0x14c314c109960c270bfd14c00e850d2b0b190950058814ba07c907aa0ce214b705a514bc09c314bb09e814ac0a4d0918098d14be087014b914bd14b8,
  0x14c90c90095b109014cc06d8081414c40e2614ca14c50abd14cb0a410bfc14c60e040ddd0abe14c808710b5b14ce14cf0a170f680bfb0cf60f4e14bf,
  0x14d720bc0626075114d114d4058f0712104f103314d60d2c0ed014d514d314d80c3414d214d00bfe14cd0d08083a077c14c70bdb06250b4708e40b9d,
  0x14e909a014ec08550b630ff714e514e40fab14e320bd0d3d14e60b9e097e083b14de14da0d820e7314e114dd14c214e014d914dc14e20c3814db1050,
  0x098f14fb0d3e14f914f814ee14f314ae14ef20bf0bff14f114f014f4105114ed14f206c40f9b0bb2098e0e180efe14eb14ea0d480daa20be0e0514e8,
  0x0b700f6908e5069b150e150c150d150b150a09c414fd150914e71507150814df15051504150615020af61503150114fe14ff150014f514fc077314f6,
  0x09650edb0b8713540f25151a151915180eee0d3f0b7115170b57083c0dcd09a107131515151607ca15140e271511151207960ee120c015131510089f,
  0x075315250c2f15240bbc1521109e15231520152209c706360f6a151f0b1a09c60ca209ad151e0eef0b8e07e90597151d0a19151c10a60d640e740e96,
  0x20c6153320c20b8f05b809370fe90ac0152c20c40abf0938152d08e620c1152e063f152a05910a830c0009c807a30c910df107541529152815261527,
  0x153e153d1538153920ca20c9099a15340b1b1536153508e709e9153715510cc620c315311530153220570b6820c50ac1097f0fb10a7c20c706060b72,
  0x09ae10d60ce320ce154620cd154505a60ca30a9215421543154106681544154007dc0cad0ac20b7320cc153f083d0ef00e86153c153b069d20c8153a,
  0x205a20d10c010a981556155508e8060707df15541553155215500e4b1052154f0a93154e15490dd3154c154720d0154a154b1548154d0f8820cf0f58,
  0x0f9c0a34155d09900fa70fc10fcd1003155b155a075515590ce40f8910f215580cf80980155720d20f0d0f6b10340861119309540c550bdc0bdd1235,
  0x156a0e2808e9156d20d4106f1568156710060af715650c2815640d6515660af80a260c39096d05aa10820b5c15631560155e0797075215611562155f,
  0x15791573066a1575157708a0156b15700b581571110b09c906690fb210b80fb80b90156e156f15690eab15720e750ac3156c0e1a0786152f152b0d83,
  0x0fba094709810a0f10210cc71574157e157615781582157a157d157b157c10350d0c0a670bb807140f8a0e4315800eb115810f2e0c4520d720d5157f,
  0x07e2158a158805a7158520d90d84083e08581587095c06c5093906c60bb41589158c06ef158606f708ea1584081d0b750bb306080dbf0d0720d806bc,
  0x08b913060ac4159c15911595159608eb159405951592159f0e32159710a7159015a0158f0650159a0ebf158e09a20fbc0986158d0782071520d6081f,
  0x15ab15b115a715b40d860c8515a415b015ac15aa0f8b20da15a9075615a20ff2205815bb07570d85159d159906dc159b158b093a069e0d2d15931083,
  0x15ad0dc315c815b715b615a615b215b915a515ba087206ec15b80b5d15ae159e0d000b0515a80fe315a305b915af15a11113071615b30b7415b50b1c,
  0x15c206d510f315bc15bf15bd07e015c50e330a8415c307dd15c015cd20dc0ddf15c90de415ca15cb15be0bde15c70c4715c10f0510530d1115c615c4,
  0x105415d315d015d50c030d0108ec15d71e7b15da15d215d115d415d915e115ce15ec15cf15db15de15df0b1d20de15e010f415dd061c097406b015cc,
  0x087315f416010ff80ac515ed15e50ec70ccf15ef15f515f215f70ea615f115eb15e415e60c040d0915e815e915ee15f015e315ea20df15e215d80fb5,
  0x160316050ca406db20e415fa20e315f820e115fe15fc0dc0075815fd078307cb15ff15fb20e215f60c8906ed0a42160015f90ac620e015dc06da0640,
  0x1617107a1616161916150e5820e620e5161216100810161410e91611160b160c15f3160a160d160e1598160f161316071606160415831608160208ba,
  0x0b7609ca162b162a162916271628071816260c92066b162516231624071707eb07741621161e161f1066064107ea09ea085a161d05f4161b161a15e7,
  0x163c163a163b1639163816371636163516330b061634163209af0a350a850fa316301631162f162e09cb162d162c10d7095d09e011070f4f0eff092e,
  0x075b164a16490fda09cc1648164516461643164416420ffc0eac20e70e9716410dbc0fb30f591640163f075a12e50d59163e06c70991163d0ca50642,
  0x075c085b165907990c3e20eb1651165816500cae08ed164e0de720e906370719164f09f70e7707980a680d2e20e80e7606090ec80b48164c164d164b,
  0x07cc06271665165f0ac709ec166610260f15066c166416630fc20c710fa2165616540948064a0816165a165b16530dce0cf920ea1067165216551657,
  0x0dab107316710bb716741675105520ed060a165d0c561668166a0cc80d3c079a0e1b0f6d1662166720ec166916600f6c165e0e980e440bb51661165c,
  0x0b1e069f106820ef0ef106b810f508ef05f9167816760edc1679167b0bb60af910930e1c166f06e31670166d167216730a4e166e08ee060b0cfe166b,
  0x168f0d881691168c0a7120f2168a10b916841687168d106b10a816861683061406b120f10db70d8a10c320f0167d1677167c10370ac820ee167f167a,
  0x088b0a9416971681083f0a6916820ac9095e06e40b7720f50d51168e168020f3093b0f120a8620f40b1f1693168805dd1692168b168516900c931689,
  0x1036169920f70c940aca08a116a3169f0fd416a1169a20f916a220f616a708f0169616940c29169d065620f805f1059016a4169b0d6607ab16a016a6,
  0x0ff016b016b620fa16ae0d4516ac105616b116af16a916b505cf16b708f1109416aa0a87088c16b40e5f16a80fc90a071114169e16980d891695169c,
  0x0fca10df071a0e4c0c05062816c516b910f609260a080ec907b016a516bd16bc16c60d4016bf16c116bb0c570c6916b316b216ad06e516c309eb16ab,
  0x16d320fb16c70b6216d016ca16cb16d116c816c916ef0d1216cc0ce516cf16d60a8806de0bb916cd16d2085c071c16b816be16c40bd116c216c00d0b,
  0x20fd16ce16e30c7216e416e0107b167e0dfb091916de16e516e216df16e116dc0e0e16d50c76085616db20fc16d70d5a16dd16da16d816d9071b16d4,
  0x0d8b066d16f70ddc16f616ba16f416f516f30b6621000c6a0cd016f20dc916f016ed16ee16f10edd16e916eb16e716e620ff20fe16ea16ec16e81cec,
  0x210417050f6e16fb17001702170305e7170110da205605ba0d5716fd16fe16fa16ff0c9516fc210216f816f906290b4910ea2101095f0a27079b06a0,
  0x170a17120bbb0a1a170f0e820acd170b17080e34170c2105062b170e17090bba170d10e0210721060acb0bd20acc0fde17060f1f1707062a21031704,
  0x172012360b07171e171f09a30c06171d12961716062c171b171910ba171c171a0d8c0e062109171817170e01171517140a761e7f171310571710081a,
  0x0ce60e2a17310e780f3f1730172f172e09ed0bf5172d172c10150ef20a28172b172a172817290d1717271726172517240e4d1723210a172117111722,
  0x210c173c0afa173d210b0e790875173b173a0775173917381737173517360961173408740db817330b780f170f9d10f706510fdf0fef07a406841732,
  0x1751210d10a9174d174b0ffd1749174c174a0e3510f817460c87174707ce0dbd0a36174317451744092c0bdf07fe174208a21741173f1740173e07cd,
  0x07ff064307e1108d088d175c175d175a210f175b06c81759175717580a6a17561754175309cd0925062d175210391038174e174f08760e000cd11750,
  0x1095211510841767079c088e176a2116177f17640e7a0831176321130a3717652112211417600cfa09a42111175e066e176221101761175f10cd073a,
  0x094917741768177617731e7d1775211b10c1176f0b531772060c08bb1770176d1771176e176c0e1d0ead07ec10bb176b211a21182119211717690c73,
  0x178b211e178817890ee217851787178617841783178206fd17810eca178005fa177e177d177c09ee071d177b1766211d177a1779211c108517781777,
  0x1796179506850ce712110ca60b2008f2103a0d5b209b17940f5010581793063809a50b7917920d530b36071e179017910928178e178f178d178c178a,
  0x0de217a317a60afb05bc211f17a117a00e87179d179f08401091179e0ebc0e5c0b670cb7179a179c10960e7b0e5b05bb179706a1150f17981799179b,
  0x0ace0ed117b117af0a0917b317b50b2117b417b217b00e9917b6061517ad17ae17ac17ab17aa07760be00be10eb417a717a817a517a417a9075d17a2,
  0x17c917cd17cc17cb17ca17c817c617c517c717c017be17bd17bf17c20caf17c417c317c10c0817bb108617bc0d0417ba0d8e093c09ef17b917b717b8,
  0x212017e20ec30e4517e10d670e6017e017df17de17dd17dc17da17d917d817db17d717d617d417d50f371027073b17d217d117d310aa17d017ce17cf,
  0x17f10616060d0faa0e2917f0099917ef17ee17ed1e6417ec17eb0e9a212421222121212317ea17e917e717e8099417e617e517e408f306a20d4117e3,
  0x0fdb0b2218001803087a07200eae17fb17fc17fd0acf0a8917fa0c090cf70ffe100517f817f717f60e88071f17f50fea17f416200b7a0d8717f217f3,
  0x10ab0a7d0f3a181218131811180f1810180c180d180e180918080f9e180b0db90b4a180a1807180621260cc0073c0ce81805180417fe1802180117ff,
  0x18260962087718241823094a18220b9107cf18210c9608000e3d0ca918201019181f0fe0181e181d181c181b181718191818181a181618150dac1814,
  0x182d1115097905ef0e9b182906b2182e0d2f182b08bc182c212b182a0e54087808f41097212a0ad021291828090b0d6e0e1e0f6f078509630d6d2128,
  0x1843184118420be218400ad1183e183f05cc183b0fac183c183d183618330e891835183a1834183909f01837183806c91830183218310b9a0f38182f,
  0x184e184d0d8f09640ecb0ad20dfd184718490b230a72184a18480be3184b184c103b09ce075e0777082a18460a1b10ce09f1212c1844184518271825,
  0x0e9c18590ed206670a50185809cf0a4f0dba067007ee1857185618550dfc18541853185107b11850213221300f0e0d30066f184f0bd4110007ed1864,
  0x084106711866186805d118650a381862186310ac0cb0186118600eb20fd60b88185f0d31185e076005bd0ad3185b0cbc185a0b240e3c185d185c0be4,
  0x0c0a0cbd187309820ba10dc20bbd1872080a1871079d085d187006ca186e0afc186d186c186a058d0657060e0b92186b0f9f18690f53092108f51867,
  0x1888109a1887188618841885130d213318831882108e188118791880187c187d06f1187e05ed187b187a1059079e0819187808151876187418771875,
  0x18950d42189418930ad5188f189d1890079f1891189b188e072109fc0cb811be07ba188d0c97188c21360c832134188b0dad0a7e188a18890ad41d50,
  0x18a218a518a418a718a618a318a118b109830d910d920cb918990e66189c189e07ef0d900e570ebd189f09881898189618920c6518970ef30b3d06d9,
  0x0cb60f4018b80e8018b40ba20e5518b70e530bbe0c98072218aa213718a818ac18ad18b218a909a60fd00e4618af18b018ab18ae06720f3c189a18a0,
  0x18ce0ea718cc18cd18ca18c918c8072318cb18c518bc18c2123218bb18c618c118c018c418c718c310f918ba18bd18be0dbb0a0d18b918b618b518b3,
  0x0e070be50e47109818dd0fd90b4b0f2118dc081c07e3100b18db0f3318da18d918d718bf18d618d518d818d118d418d20b9318cf18d018d30f5a10e1,
  0x18f008f60c0b0f2218ef18ed0d9318ee0bd708a318eb18ec18ea0b7b18e918e818e418e518e618e718df18e118e30ad606fa18de18e018e205a10a74,
  0x09d209840f8d0be618f90f2307a009d108f80a1c18fa0a8a0ec20e0f100f18fb18f708f7101c18f8076107a1084218f609d018f518f418f318f210ad,
  0x190707a2190a059d107408f9213a190d1904085e19091905084318fd2139190218fc0be7088f0a511900093d0ad719010b2518ff096610c418fe0d16,
  0x213b19140d0f0fff08fa191e191a191205be0a43191719131919213c191d0c0d19100c300844190b190e190c190f08790ba506a3190319060d941908,
  0x062e192310e2192405bf0ff407240f41192119250d3219221920191b0bbf191f213d19450a9610b50c0c0e9d07f019150ff3059e19160c991911191c,
  0x0a5208450bc0193019350e7c0b941918193219381934193619331937192b0a730f700a6b1928192f1929192c0a130e4e192a192e1927192d19260de1,
  0x194e194c194d0d521951194b2050194a1949194409a71948194619421943193f081e0fc51940194119391931193c193a193e193d193b0bd50b08213e,
  0x19640e9e0e200a970e640cb10846096e1962196119631960195f195e195c195d195b195a195919581957213f1956195519540725195319521950194f,
  0x197919781977064405e819721975197419711970197307780bc10825196f2140196c196d196e196b0eaf196a105a196819691966106c19671965147e,
  0x1989198819871986100008fb19850c4e09f2198419820a1d198308fc10fa105b106a0fa81980197f0726073e197e197d197c0b4c197a197b0a531069,
  0x199e199c199b10fb199a19990b0919980ce919951996199710e3199419930c0e19920f26199119900b7c198f198d198e198b0c9a198c101609f3198a,
  0x19a719ab0c580e2b0c9b19a905c00e2c097505ca08fe08fd19a219a40f8e087b0e9f09d308a50727199f19a10eb90ad819a00e5a11010dee0e56199d,
  0x19b519b60cea0e110c8119b219b019b119af078a0b9519ac0fd711090b8907d109d40e1019b907d00dae19ae19ad19a605de08a60f7119a819a519aa,
  0x0eb70fb70ef519c519c9090019c119c019bf19c319c20c590bc20f0f0ceb19be19ba092719bb0a3919bd19bc19c8111608ff19b719b80ef40b3819b3,
  0x10bc19dc06860b2619db19da19d919d619d70c1e19d519d419d319d8064f19d119d00e1219cd19cf19d219ce19cc0bd619cb19ca0f8f19c619c719c4,
  0x19e9090119e80a550f000a7f0bc307350f4b19e7115119e60a1419e50ba619e414f707d219e319e219e119e019df05f019de19dd0cb209d50a5409f4,
  0x05d319fb19fa19f9062f0b0a19f810ae093e19f619f519f4072819f219f319f119ef19f019ed19ee0d3319ec0bc419ea08900e480c4619eb19f70e7d,
  0x1a031a021a041a0d1a0f06741a110ed30c5a10cf1a05063006fc06871a0007f108500f7206730b270e211a0119fe059306a419ff0a100ef619fd19fc,
  0x1a121a131a151a161a1b1a1c05d21a25058c1a1e1a1d1a1408471a101a0e06f806751a0a0ff921421a0b1a081a0c1a061a0706100dc60cd208010a2c,
  0x1a231a2d1a2207291a201a241a091a261a281a2e1a271a1f21441a29064b06761a2c1a2b21430c1009021a19060008480c0f1a1a1a171a180c780cbe,
  0x1a351a341a431a3921461a301a3c0eb808a706771a320f5b1a3b0d6809671a360ad906781a3307f2077d21450b5e1a381a401a2a10700e4f1a211a2f,
  0x0c111a4a1a4e05920d961a550f0106e60cd3108f105c21471a4f10751a461a411a5306f91a501a450e3e1a3e1a3f1a3105c11a3d0f731a371a3a0daf,
  0x1a54105d1a5f0cba1a5e1a570c121a5b1a560afd214806f21a4b1a611a580ed6100109f50a560ada1a481a4d0f071a521a49058b0dff1a511a4c1a44,
  0x1a6c0f300c1f05df1a670d0e1a621a6805f51a661a651a691a6a0fcb0f3b1a420a0c1a631a6b1a6410e40f7420541a5c1a591a600fd51a5d1a5a06b3,
  0x06311a7b1a771a821a781a761a7e0e491a741a811a801a7a214b0f020d9711121a6d1a47214a1a6e0f081a73214907d31a720a120adb1a6f0e8a1a70,
  0x1a911a8c0a9a1a7d0e7e1a8a0d981a891a8b1a881a871a85107c1a8311111a841a86214d0a991022101d08230b2809921a790bc51a751a7f1a7c0dda,
  0x059b0def1a9c0cc91a9b1a9a0808109f07ac11dc1a99078b08a81a971a961a9517f9107d1a931a94160916181a8e1a8f1a8d0be81a921a711a900c13,
  0x0e8b0ed71aae1aad0e6b1aaf1aac1ab006ba1aab06bd08490c9c1aa80a211aa61aa51aa31aa71aa41aaa1aa01a9f0e151a9e09a81a9d1aa21aa10680,
  0x0b0d1ace1ac81ac710fc0ba71abe1ac01abf1abd1ac21ac10fd31ac30cb31ab21ab81aba1abc1ab91ab41ab31ab60f751ab506881ab71abb0c7a1ab1,
  0x1aea1ad91ad61ade1adf1adc1ad81ad71ae0106d1add1ad51adb1ad21ad310421ad40e3b1ac60cec1ac91acc1ad01acb06791acf1ac41ac51acd1aca,
  0x166c09030a571af51af6085f1af41af21af11af01af31aa91aee1aef1aec1aed1aeb1ae41ae91ae521501ad11ae6077906a51ae81ae71ae21ae11ae3,
  0x1b081afe1b071b040c321b051b090c5b08291b031afc07f31afd1b000cca1aff1b020b4d1afb0ecc05c21afa09041af90adc06111af806b40a781af7,
  0x1b14106e21511b170add1b191b181088094d1b130f511b121b11103c1b1010870c141b0f1b0e10db09681b0c05a21b0108a41b0d1b0b1b060ea01b0a,
  0x1b2d1b2a07f41b2b06451d181b281b241b1e1b231b251b271b261b221b211b201b1f1b2920511b1d0f7606e71b1b1b1c0f101b1a1b150b610b7e1b16,
  0x1b3e1b3d1b3c0b291b3a107e1b3b1b3906cb1b380e1409d61b370763087c1b361b350e190f111b34105e0b7f1b331b321b310a581b301b2e1b2f1b2c,
  0x0ade1b4e1b4d07640c741b4a082421521b4b0d991b4c0b39084a1b490d3408911b481b471b460b0b068f1b451b441b4306cc1b421b411b401b3f072a,
  0x1b571b58111009d809d9084b1b59061209d71b520ecd0ae01b530c3f094b1b551b541b510adf0ccb0b2a21531b500be9101e07ad0ba00f771b4f0860,
  0x0dbe0ba31b5d21551b611b6008be1b631b5e0b8008bd1b62103d0c9d0b811b5f0dfa09da104708a91b5a1b5c1b5b1b5621540ae106b5110607840bc6,
  0x1b6c09db10281b681b6a0d351b6b1b6f1b761b6e21571b710cee1b721b67110310af0b3e1b65072b0b820ca71b641b660ced2156077a0ea1067a0c8a,
  0x1b7f07f51b7b0ec41b7e1b801b7d105f1b7a0a1e09051b75087d1b791b771b6d1b780ddb1b731b740d9a05c306190f900c7708920a9b1b7021591b69,
  0x1b920a591b911b90151b09a91b8f215b1b8e08bf1b8d0afe1976077b1b8c1b8b1b89084c1b8a0ef71b871b8809fa1b86215a1b831b841b821b851b81,
  0x0f911ba61ba41ba51ba31baa1ba20ece1ba11ba0114f091a1b9f0ae20dcf1b9e1b9d1b9c1b9b0f781b9a0d9b1b981b991b970c861b961b951b941b93,
  0x06890f921baf0d540ea20c5c0e361bb307651bb11bb0100c0cd41bb21bad0b96072c1bae0e7f067c0ede0906096f0ef80d2006a81bab1ba91ba81ba7,
  0x1bbd1bbc1bb909071bbb1bba215d215c0d690a0a0ef91bb61bb7087e0e380ae309dd09aa1bb80edf0ded0bc71bc50c2e1bb409dc11080cfb10eb1bb5,
  0x1bd00c2a0b590a3a1bcd061a0cef1bcc0766215f0efa1bcb1bca0c151bc906cd1bc80a180b971bc71bc61bc4215e1bc21bc01bc1073f1bbe0c201bbf,
  0x1be51bf01be21be01bdf1be10d9c10601bdd1bdc1bde1bdb0bc80cf010ec1bd81bd708aa1bda0b981bd907ae1bd51bd21bd31bd11bd41bd61bce1bcf,
  0x1bfe1bfc1bfd101f1bfa1bfb1bf71bf81bf91bf61bf51bf30a5a1bf41bee1bf11bef0b991bed1bf21beb1bea1be71be91bec1be80d361be31be41be6,
  0x1c1106ce1c0f084d1c0c1c0d09fd1c0e1c0b0d550de51c0a087f2161082607671c090a1f1c081c041c071c061c051c0308021c020b2b1c001c011bff,
  0x1c240d491c211c221c231c1e06e81c1f10481c201c1c1c1d10291c1b0a5b10bd0e2d1c1a1c1707681c161c181c141c120f521c151c131c191c100969,
  0x07f608510b3a0fc305e90c84092d0d0d0f421c2f0e130b0e0c7f1c2e19471c2d11fd11fe1c2c1c2b09f61c2a0b2c1c291c281c270818091b1c261c25,
  0x0d6a0d371c3a0cbb0d9e1c4a1c3d1c40078c1c370d9d0c160c5d0d021c391c381c450feb1c360a791c340d4a0e4a1c330deb067d1c311c321c300f43,
  0x0f4405fe103e1c4b080d0cb40b4e0dd01c4c0ebe1c4405d01c421c430b2d0a5c0c5e1c4110e5058a1c3c0c210c2b1c3e0b830d050e3a0b431c3f1c3b,
  0x10b005c50bc90bca1c520a8c1c541c510a200c170d431c502164106108800beb06321c4f0c3a1e7c1c4e1c4d05c40c7e0db01c491c481c471c46067e,
  0x06cf0f031c611c60082721651c6310fd090805cb0d381c5f1c5e1c5d0a221c5c0f790dd6103f1c5b1c591c5a1c35072d187f1c551c571c580ea31c56,
  0x09091c6f1c700a5e10761c6e1c6d1c6c0b401c6b1c6a0b4f0a3b0ccc0e2e0a290a5d1c690dc81c671c680d3921681c6621671c651c640d6b07d41040,
  0x10170a6c10891c7e1c7d0a2a09600e811c7c1c7b1c7a0aff1c781c791c761c751c770ae41c740a600e610b8408c00c661c711c720a8d1c7309ab0922,
  0x1c8c217106be0dd4217221701c881c841c861c85216d216c08110fa0216f216e0d191c821c81216b0b2e06f31c8321690d3a216a1c8007f71c7f10b1,
  0x090a217a0ae51c910e5e1c8d06331c9b21771c8e21781c9621761c951c901c921c8f0d4b21741c9421752173217908ab10d01c8a1cd21c871c8b1c89,
  0x1c9f217e0aa221842180217f218321850f7a21811c9c1c9d1c9e0bcb217b1c971c9a0cf10fec1c981c931c990bcc20530db10a6d07f90f93217d217c,
  0x09851ca310e60a2b0ed407e821861ca71ca521870b00218a218c1ca61ca40b510b501ca00997218d218b090c21881ca1205907af0ccd0ed506130f4c,
  0x0cfc1cb21cb106b621900d030c18094c1cb306f40ae61cad0881218e1cae08201cac1cab0c9e218f1caf0d100d6c0dde20521ca21caa1ca81ca91102,
  0x1cc51cc721941cc61cc81cbf0d9f0ae71cc01cc11cc41cc31cc221931cb71cb81cbe07d521921cbb1cb91cb61cb50d441cbc1cbd21911cba1cb41cb0,
  0x1cde0f311cdd0bcd1cdc10100cf21cda1cdb1cd91cd61cd81cd51cd41cd31cd11ccf1cce1cd01ccd1cd710231ccb072e219621951ccc1cca1cc90c75,
  0x1cf21cf01cf11cee1cef1ceb05a81ced1cea1ce71ce81ce9061b1ce61ce41ce50e67090d06d007311ce31ce21ce11ce01cdf072f2197073005fb06a6,
  0x0aa30b3b05e01d031d011d021d000f3208931cfd090e1cfc1cfe0efc1cfb0c4805850bea0f941cfa1cf909721cf81cf70efb1cf51cf61cf41cf30da3,
  0x05e2219a0ae8096a08571d081d0a1d0906d10b5206a71d0719b40c5f081b1099080e10620882108b1cff0da010b20cfd1d0505e11d060e391d040732,
  0x12331ada1d1b09931d141d1709de1d151d1608ac0a5f068a104107400b600e6c0b8a1d131d1210d11d111d101d0e1d0d1d0f219b1d0b1c531d0c10be,
  0x0fe11d26067f0c191d251d241d201d221d231d211d1a10d31d1f0b2f1d1e1d1d0a440d5c1d1c107210d205ff0f2409ff0ba405ea0de6108a1d190b5a,
  0x1d351d341d330ff51e4e1d320ea41d310b86102021a20b8521a121a0219f1d301d2e1d2d1d2c219e1d2f1d2b1d2a219d1d29155c219c10ed1d281d27,
  0x1d4b1d4a1d491d481d471d460f491b7c1d431d441d45077e1d420ae91d411d4005a91d3f1d3e1d3a06ee1d3c1d3b1d3d1d3908171d380b3c1d3706d2,
  0x060f0da10f961d561d57084e10b30b5f0dd10e83074110491d531d540b3f0a8e090f092f0cf30f3407d605e31d511d5206581d4f0df61d4d1d4c0733,
  0x1d661d651d641d630f061d611d621d601d5f1d5e1d5d08ad21a410c50d56074321a3088307421d5b06d706d60c671d5c1d5a1d5910710ee01d551d58,
  0x1d751d731d721d701d6f068b1d6e09ac060110631d6d10081d6c0b030f7b09df059c05dc0e84162212091d6b1d6a07690b0c19810ea51d691d671d68,
  0x0de00cb51d871d860e2206b91d8521a909101d841d830a3c07d71d821d801d7f1d7d1d811d7e1d7b1d7c1d7a1d791d781d771d76073421a71d741d71,
  0x0c4a1d9808840c1a1d95076a1d961d940a801d921d931d911d901d8f1d8e1d971d891d8b1d8a1d8c068c08051d8d0cce0804080306170c490e501d88,
  0x1db01daf0b541dae1dad06b71dac1dab092b1da91daa1da81da61da71da51da41da207d81da31da021aa1da11d9b1d9e1d9c1d9d1d9f1d9a0da21d99,
  0x1dc91dc81dc71dc61dc51dc41dc31dc21dc11dc01dbf1dbe1dbd1dbb1dbc1db81dba0eb51db90e621db71db61db51db41db321ac21ab09111db21db1,
  0x1dd91dd81dd50f181dd721af059f1dd621ad1dd421ae10e807b21dd30fad1dd21dcf1dd11dd00fce1dcd1dce093f069c076b18f11dcc161c1dcb1dca,
  0x05941deb1dec1ded08521de71de51de61de90c6109951de81de41de31de21ddf08c21de11dde21b11de01ddd21b00bce098709980fb91ddc1ddb1dda,
  0x0fbb0c881dfe1e001e0105f61dea06ea1dff1dfd05d41df80ed81dfa1dfb1dfc1df91dee1def1df11df5110f06dd1df21df61df01df41df31df721b2,
  0x09fb1e0f06f61e101e121e1306341e151e1606471e0a1e0b0db31e0e1e0d0dc50fed0f7c1e091e081e0c0e681e070cf41e061e051e041e031e0210bf,
  0x1e251e2a1e291e28084f1e231e241e271e2221b31e260f7d21b41e1e0fe209231e1d1e1c05ec1e211e1f1e201e1b1e1a1e141e171e181e1909120646,
  0x09f81e401e3f08851e3e1e3d1e3c1e3b21b61e3a097a0c681e36110c1e391e381e371e341e351e321e311e2c1e331e2d1e2e1e301e2f0d1a1e2b1e11,
  0x21b71e521e511e5007871e4f06480fc6164713cc0fae0ff6091c1e4b1e4d1e4c1e4a0e511e4910c01e4810d41e4610ff1e451e471e441e431e421e41,
  0x1e691e680eb01e671e660bec1e6508ae0d3b1e631e621e611e601e5f1e5e1e5d1e5c1e5b1e5a1e591e581e571e551e561e540c60100417551e530924,
  0x20db20cb20a4208f208e2083219820d31e79186f1e781e77109b1e741e761e751e721e731e711e701e6c10d51e6f1e6e1e6d1e6b1e6a1d4e1bc31852,
  0x004f005321c7000921b521a821a621a521992189218221662163216221602158214f214e214c2141213821352131212f212e212d2125210e210820dd,
  0x00dd00dc005600080043004000420007000600d400d300d200d100d000cf00ce00cd00cc00cb001e0004003c0003003b0055002a002921c600540052,
  0x000d0011000f002e001f002d00f500f400f300f200f100f000ef00ee00ed00ec00eb00ea00e900e800e700e600e500e400e300e200e100e000df00de,
  0x002000300022002f011501140113011201110110010f010e010d010c010b010a010901080107010601050104010301020101010000ff00fe00fd00fc,
  0x004e21c50010008900510050]

/-- `index_pointer_jis0208_1` (lib/whatwg/encoding/indexes_pointer.cpp:15), 7326 entries. -/
def ptr1Jis0208 : Table := ⟨16, 7326, ptr1Jis0208Data⟩

/-- Rows of `index_code_point_jis0212`. -/
def cpJis0212Data : Nat := pack 480 [
  0xffffffffffffffffffffffffffffffffffffffffffffffffffffffffffffffffffffffffffffffffffffffffffffffffffffffffffffffffffffffff,
  0xffffffffffffffffffffffffffffffffffffffffffffffffffffffffffffffffffffffffffffffffffffffffffffffffffffffffffffffffffffffff,
  0xffffffffffffffffffffffffffffffffffffffffffffffffffffffffffffffffffffffffffffffffffffffffffffffffffffffffffffffffffffffff,
  0xffffffffffffffffffffffffffffffffffffffffffffffffffffffffffffffffffffffffffffffffffffffffffffffffffffffffffffffffffffffff,
  0xfffff00385003840ff5e002da002db000af002dd002d9000b8002c7002d8ffffffffffffffffffffffffffffffffffffffffffffffffffffffffffff,
  0xffffffffffffffffffffffffffffffffffffffffffffffffffffffffffffffffffffff000bf000a6000a1fffffffffffffffffffffffffffffffffff,
  0xffffffffffffffffffffffffffffffffffffffffffffffffffffffffffffffffffffffffffffffffffffffffffffffffffffffffffffffffffffffff,
  0xfffffffffffffffffffffffffffffffffffffffffffffffffffffffffffffffffffffffffffffffffffff02116000a402122000ae000a9000aa000ba,
  0xffffffffffffffffffffffffffffffffffffffffffffffffffffffffffffffffffffffffffffffffffffffffffffffffffffffffffffffffffffffff,
  0xffffffffffffffffffffffffffffffffffffffffffffffffffffffffffffffffffffffffffffffffffffffffffffffffffffffffffffffffffffffff,
  0xffffffffffffffffffffffffffffffffffffffffffffffffffffffffffffffffffffffffffffffffffffffffffffffffffffffffffffffffffffffff,
  0xffffffffffffffffffffffffffffffffffffffffffffffffffffffffffffffffffffffffffffffffffffffffffffffffffffffffffffffffffffffff,
  0xffffffffffffffffffffffffffffffffffffffffffffffffffffffffffffffffffffffffffffffffffffffffffffffffffffffffffffffffffffffff,
  0xffffffffffffffffffffffffffffffffffffffffffffffffffffffffffffffffffffffffffffffffffffffffffffffffffffffffffffffffffffffff,
  0xffffffffffffffffffffffffffffffffffffffffffffffffffffffffffffffffffffffffffffffffffffffffffffffffffffffffffffffffffffffff,
  0xffffffffffffffffffffffffffffffffffffffffffffffffffffffffffffffffffffffffffffffffffffffffffffffffffffffffffffffffffffffff,
  0xffffffffffffffffffffffffffffffffffffffffffffffffffffffffffffffffffffffffffffffffffffffffffffffffffffffffffffffffffffffff,
  0xffffffffffffffffffffffffffffffffffffffffffffffffffffffffffffffffffffffffffffffffffffffffffffffffffffffffffffffffffffffff,
  0xffffffffffffffffffffffffffffffffffffffffffffffffffffffffffffffffffffffffffffffffffffffffffffffffffffffffffffffffffffffff,
  0xffffffffffffffffffffffffffffffffffffffffffffffffffffffffffffffffffffffffffffffffffffffffffffffffffffffffffffffffffffffff,
  0xffffffffffffffffffffffffffffffffffffffffffffffffffffffffffffffffffffffffffffffffffffffffffffffffffffffffffffffffffffffff,
  0xffffffffffffffffffffffffffffffffffffffffffffffffffffffffffffffffffffffffffffffffffffffffffffffffffffffffffffffffffffffff,
  0x003ad003acffffffffffffffffffff0038ffffff003ab0038efffff0038cfffff003aa0038a003890038800386ffffffffffffffffffffffffffffff,
  0xffffffffffffffffffffffffffffffffffffffffffffffffffffffffffffffffffffff003ce003b0003cb003cd003c2003cc00390003ca003af003ae,
  0x004040040300402fffffffffffffffffffffffffffffffffffffffffffffffffffffffffffffffffffffffffffffffffffffffffffffffffffffffff,
  0xffffffffffffffffffffffffffffffffffffffffffffffffffffffffffffffffffffff0040f0040e0040c0040b0040a0040900408004070040600405,
  0x004540045300452fffffffffffffffffffffffffffffffffffffffffffffffffffffffffffffffffffffffffffffffffffffffffffffffffffffffff,
  0xffffffffffffffffffffffffffffffffffffffffffffffffffffffffffffffffffffff0045f0045e0045c0045b0045a0045900458004570045600455,
  0xffffffffffffffffffffffffffffffffffffffffffffffffffffffffffffffffffffffffffffffffffffffffffffffffffffffffffffffffffffffff,
  0xffffffffffffffffffffffffffffffffffffffffffffffffffffffffffffffffffffffffffffffffffffffffffffffffffffffffffffffffffffffff,
  0xffffffffffffffffffffffffffffffffffffffffffffffffffffffffffffffffffffffffffffffffffffffffffffffffffffffffffffffffffffffff,
  0x000de00166fffff00152000d80014afffff0013f00141fffff00132fffff00126fffff00110000c6ffffffffffffffffffffffffffffffffffffffff,
  0x0014200138001330013100127000f000111000e6ffffffffffffffffffffffffffffffffffffffffffffffffffffffffffffffffffffffffffffffff,
  0xffffffffffffffffffffffffffffffffffffffffffffffffffffffffffffffffffffffffffffffff000fe00167000df00153000f80014b0014900140,
  0xffffffffffffffffffffffffffffffffffffffffffffffffffffffffffffffffffffffffffffffffffffffffffffffffffffffffffffffffffffffff,
  0x000c8000c90010e0010a000c70010c0010800106000c3000c50010400100001cd00102000c2000c4000c0000c1ffffffffffffffffffffffffffffff,
  0x001390013600134001280012e0012a00130001cf000ce000cf000cc000cd0012400120001220011e0011cfffff0011800112001160011a000ca000cb,
  0x000da00162001640015e001600015c0015a001560015800154000d50014c00150001d1000d4000d6000d2000d3000d10014500147001430013b0013d,
  0xfffffffffffffff0017b0017d001790017600178000dd00174001d5001d9001db001d7001680016e001720016a00170001d30016c000db000dc000d9,
  0x000ea000eb000e8000e90010f0010b000e70010d0010900107000e3000e50010500101001ce00103000e2000e4000e0000e1ffffffffffffffffffff,
  0x0013c0013e0013a0013700135001290012f0012bfffff001d0000ee000ef000ec000ed0012500121fffff0011f0011d001f50011900113001170011b,
  0x000fc000f9000fa00163001650015f001610015d0015b001570015900155000f50014d00151001d2000f4000f6000f2000f3000f1001460014800144,
  0xfffffffffffffffffffffffff0017c0017e0017a00177000ff000fd00175001d6001da001dc001d8001690016f001730016b00171001d40016d000fb,
  0xffffffffffffffffffffffffffffffffffffffffffffffffffffffffffffffffffffffffffffffffffffffffffffffffffffffffffffffffffffffff,
  0xffffffffffffffffffffffffffffffffffffffffffffffffffffffffffffffffffffffffffffffffffffffffffffffffffffffffffffffffffffffff,
  0xffffffffffffffffffffffffffffffffffffffffffffffffffffffffffffffffffffffffffffffffffffffffffffffffffffffffffffffffffffffff,
  0xffffffffffffffffffffffffffffffffffffffffffffffffffffffffffffffffffffffffffffffffffffffffffffffffffffffffffffffffffffffff,
  0xffffffffffffffffffffffffffffffffffffffffffffffffffffffffffffffffffffffffffffffffffffffffffffffffffffffffffffffffffffffff,
  0xffffffffffffffffffffffffffffffffffffffffffffffffffffffffffffffffffffffffffffffffffffffffffffffffffffffffffffffffffffffff,
  0xffffffffffffffffffffffffffffffffffffffffffffffffffffffffffffffffffffffffffffffffffffffffffffffffffffffffffffffffffffffff,
  0xffffffffffffffffffffffffffffffffffffffffffffffffffffffffffffffffffffffffffffffffffffffffffffffffffffffffffffffffffffffff,
  0xffffffffffffffffffffffffffffffffffffffffffffffffffffffffffffffffffffffffffffffffffffffffffffffffffffffffffffffffffffffff,
  0xffffffffffffffffffffffffffffffffffffffffffffffffffffffffffffffffffffffffffffffffffffffffffffffffffffffffffffffffffffffff,
  0xffffffffffffffffffffffffffffffffffffffffffffffffffffffffffffffffffffffffffffffffffffffffffffffffffffffffffffffffffffffff,
  0xffffffffffffffffffffffffffffffffffffffffffffffffffffffffffffffffffffffffffffffffffffffffffffffffffffffffffffffffffffffff,
  0xffffffffffffffffffffffffffffffffffffffffffffffffffffffffffffffffffffffffffffffffffffffffffffffffffffffffffffffffffffffff,
  0xffffffffffffffffffffffffffffffffffffffffffffffffffffffffffffffffffffffffffffffffffffffffffffffffffffffffffffffffffffffff,
  0xffffffffffffffffffffffffffffffffffffffffffffffffffffffffffffffffffffffffffffffffffffffffffffffffffffffffffffffffffffffff,
  0x04e1f04e1204e0c04e0504e0404e02ffffffffffffffffffffffffffffffffffffffffffffffffffffffffffffffffffffffffffffffffffffffffff,
  0x04e9604e8d04e7f04e7904e7504e7404e6904e6804e6304e5c04e5a04e5104e4704e4404e4104e4004e3504e3004e2f04e2e04e2b04e2804e2404e23,
  0x04f0b04f0804f0304f0204f0004eff04efe04efd04ef504ef304ef104eef04ee804ee204ee104ee004edb04eda04ed004ec304eb904eaf04e9d04e97,
  0x04f5604f5404f5204f4c04f4b04f4904f4804f4204f4004f3e04f3b04f3904f3704f3504f3304f6004f3104f2e04f1904f1704f1604f1504f1204f0c,
  0x04f9304f9204f9004f8e04f8c04f8a04f8904f8504f8404f8204f8104f7e04f7d04f7a04f7904f7804f7704f7104f6e04f6c04f6a04f6304f5f04f58,
  0x04fd204fcf04fcd04fcc04fcb04fc904fc804fc604fc504fc104fc004fbe04fbd04fbc04fbb04fb904fb704fb204f9f04f9e04f9a04f9904f9704f94,
  0x050220501e0501d0501c0501b050180501705013050100500e0500c0500a0500705004050010500004fff04ffd04ffc04ff204ff004fe204fe004fdc,
  0x050660506305062050600505f05059050570505305052050510504e0504c0504a0504605045050420504105040050350503305032050300502e05027,
  0x050a1050a00509f0509e0509c0509b05096050940509305092050900508f0508e0508a050860508405083050810503b05071050700506d0506a05067,
  0x050e8050e6050e4050e2050df050dd050dc050d8050d4050d3050d0050ce050cc050c7050c4050c3050c0050bd050ba050b9050b0050af050aa050a2,
  0x05127051230511e0511d0511c0511b051190511705110050f20510e0510d0510c0510b05108051070510605103050fe050fa050f6050f1050ef050e9,
  0x0518b05184051830517e05166051640515f051580515705155051530514f0514a051420513905138051350513405133051310512f0512d0512c05128,
  0x051f2051ee051e5051e2051de051d8051d5051d3051d2051d1051cf051c8051c2051bf051be051bc051ba051b8051ad051a3051a10519d051980518e,
  0x0525c0525a05258052570525505249052450523c05235052320523105228052220521805216052150521305212052050520205201051f7051f4051f3,
  0x052a7052a6052a5052a40529c0529a05298052970529605295052930528c0528a0528505282052800527905278052770526e0526605261052600525f,
  0x052ea052e9052e8052e5052e1052dc052db052d6052d4052d1052cf052cc052c8052c6052c4052c0052bd052bb052ba052b8052b7052b6052b0052af,
  0x0532c0532b053290532805327053250531f0531e0531c0531b0531805313053110530c0530b0530a0530305300052f7052f6052f4052f1052f0052ec,
  0x0538e0538805387053830537e05379053720536d0536c0536505363053610535b053590534b0534c053420533e0533d0533c0533505332053300532d,
  0x053dd053da053d5053d3053d2053cf053c5053c0053bd053ba053b8053b7053b5053b4053b2053af053ab053aa053a4053a10539d053990539405393,
  0x05464054620545e0544f0544d0544705444054430543505434054310542f0542a0542805427054210541a0541305402053f5053e7053e6053e0053de,
  0x054aa054a9054a7054a6054a10549f0549c0549605495054910548d05489054880548505483054810547f054740546e0546d0546b054690546705466,
  0x05508055050550105500054ff054fe054fc054f6054ef054ec054ea054e0054ce054cd054ca054c6054bf054bb054ba054b9054b7054b1054ae054ad,
  0x0555e0555b0555a0555805551055500554d0554a0554905547055410553d0553c0553b0553605535055320552b0552a055150550e0550d0550c05509,
  0x055c6055c3055c1055bf055b2055ad055a4055a305597055940559305592055910558f0558e055880558605582055810557f05566055640556105560,
  0x0561205611056100560f0560e0560d0560a0560805605055ff055f6055e9055e2055de055db055d8055d7055d3055d2055d1055ce055cc055cb055c9,
  0x05661056600565e056540564f0564d0564b0564905646056440564305641056400563f0563d0563c0563b05639056370563505633056300562c05619,
  0x056a9056a8056a7056a60569f0569e0569d0569a05699056950568c0568b0568805685056840567505672056710566f0566d05669056660566305662,
  0x056e7056e6056e5056e4056e1056df056dd056dc056d9056cd056cc056d0056cf056cb056ca056c9056c5056be056b7056b3056b1056ad056ac056ab,
  0x0572c0572a0572905725057240572305722057200571d0571b0571a05715057110570c0570a057070570205701056f7056f6056ed056eb056f1056e8,
  0x057740577305771057700576f0576e0576d0576b05768057670576505762057520574d0574c05746057450573f0573e0573d05734057330572f0572e,
  0x057ac057a9057a8057a705795057a10579f0579e0579d0579c0579a0579905797057940578c05783057810577e0577c0577b0577a057790577705775,
  0x058080580405803057ff057fe057fd057f8057f6057f5057f0057ed057e9057e7057e6057e4057de057dd057d5057cf057cc057c8057c7057bd057b8,
  0x0586705864058610585f05855058500584f0584d0584c058490583f05839058320582d0582705826058200581f0581e0581b0580d0580c057e105809,
  0x058b2058b1058a9058a6058a2058a1058a00589d0589605894058900588f0588d0588c0588a05889058880588705881058800587f0587c0587805868,
  0x086410591405913059120590c0590b0590605905058f3058e9058e2058e1058dd058da058d6058d4058d2058d0058ce058cd058c8058c2058bc058c4,
  0x0596d0596b05963059610595f0595e0595d0595b05959059530595205946059430593f059360593505933059300592f059280592405923059210591d,
  0x059bc059ba059b7059b3059b0059af059ae059ad059a7059a40599f0599705995059920598e0598c0598b0597c0597b059790597605975059720596f,
  0x05a0e05a0d05a0c05a0405a00059f7059f4059f2059f1059ef059ee059e7059e4059e3059df059de059dd059d2059cd059ca059c8059c4059c3059c1,
  0x05a7a05a7705a6d05a6705a6505a6305a5e05a5505a5005a4c05a4805a4705a4505a4405a3005a2d05a2a05a2805a2705a2405a2305a1e05a1305a12,
  0x05ac605ac405abf05abb05aba05ab805ab505ab305ab205ab105aac05aa705aa205aa005a9f05a9e05a9c05a9905a9605a9305a9005a8b05a7e05a7b,
  0x05b4105b3805b2d05b2505b2105b1d05b1b05b1905b3405b1705b0805b0105b0005afd05af605af505aee05aea05ae505ae005adc05ada05acf05ac8,
  0x05ba905ba805b9605b9405b9305b9105b9005b8e05b8a05b8605b8405b8105b7f05b7e05b7d05b7c05b6f05b6e05b6805b5e05b5605b5205b4c05b4b,
  0x05c1705c0c05bfd05bf405bf105bef05be005bda05bd905bd805bd705bd605bcf05bcd05bc105bc005bbc05bba05bb705bb205bb105baf05bad05bac,
  0x05c7505c7405c7005c6d05c6905c6805c6705c6305c6205c5c05c5a05c5905c3605c3505c3205c3005c2e05c2c05c2b05c2905c2605c2305c1f05c1e,
  0x05cdd05cd205ccb05cc905cba05cb505cb405cb205caa05ca605ca305ca205ca005c9f05c9d05c9205c8f05c8a05c8805c8705c7d05c7c05c7b05c7a,
  0x05d5505d4805d4605d4305d4205d3f05d3d05d3905d3405d3105d2705d2605d2405d2305d2b05d1205d0d05d0605d0105cf405cf205cf105cee05cd7,
  0x05d9905d9505d9405d9305d9205d8a05d8805d8305d8105d7f05d7e05d7a05d7905d7005d6d05d6a05d6405d6205d6105d6005d5f05d4a05d5905d51,
  0x05e0d05e0705e0005df905df805de905de405de005dd905dd805dce05dd005dcb05dc705dc305db905db805db405db005dab05da705da005d9f05d9b,
  0x05e6c05e6b05e6a05e6805e5e05e5c05e5b05e5805e5605e5105e4905e5005e4b05e3e05e3505e3205e2805e2e05e2005e1f05e1805e1505e1405e12,
  0x05ed405ed205ed105ece05ecb05ecc05ec605ebf05ebe05ebd05eb305eb105eac05eaa05ea805ea505ea405ea205e8e05e8b05e8005e7005e6e05e6d,
  0x05f3605f3405f3005f2e05f2c05f2b05f2805f2405f2305f2205f2105f1d05f1c05f1905f0e05f0805f0705f0605f0205eeb05ee505ede05edc05ed5,
  0x05f7e05f7d05f7a05f7805f7505f7405f7205f6f05f6705f6405f6305f6005f5b05f5805f5405f5005f4d05f4705f4505f4405f4005f3f05f3d05f3b,
  0x05fd305fd205fd105fd005fcb05fc905fc805fc705fc405fb805fb105fb005faf05fac05fa405fab05fa705fa205f9d05f9c05f9605f8f05f8d05f89,
  0x0601a060180601706014060130600d0600a0600705ffc05ffa05ff605ff305ff205fef05fee05fed05fec05fea05fe905fe805fe205fe105fde05fd4,
  0x0608a0608806086060820607f0607e0607106067060610605d060570605606054060510604c0604906048060470604006035060330602d060240601f,
  0x060cf060ce060cb060ca060c9060c8060c4060c2060be060bb060b7060b1060b0060a8060a5060a4060a20609e0609d060980609506093060910608e,
  0x061170611606114061130611206111061100610c0610a0610706102060fd060fc060f8060f5060f2060e5060e2060de060dd060db060d9060d5060d4,
  0x0617f0617c0617b06178061720616c061600615e061490614606145061410613906137061360613506131061300612b0612a061220611e0611c06119,
  0x061c2061c1061c0061bc061b9061b8061ad061aa061a8061a5061a00619f0619d0619c061980619706193061920618d0618b06184061830618106180,
  0x06222062200621c062150621306207062040620306201061ef061ed061ec061e5061e9061e7061e2061e1061df061de061dd061dc061d5061cf061ce,
  0x0627d0627a062730626f0626d062640625c0625a06256062540625206251062500624c062460624406243062420623d062390622b062290622706223,
  0x0630406303062fd062fc062f4062f2062ea062da062d6062d5062ce062c4062bf062be062ba062b7062b6062b3062a8062a6062900628f0628e0628d,
  0x06353063520634e0634b0634a06346063440634306342063410633c0633906336063350632d0632a06329063180631606313063100630d0630b0630a,
  0x0639e0639a063990639506394063900638a0638706384063820637f0637d0637c063780637506374063710636d0636c06366063650635b0635806354,
  0x063f9063f8063f5063f3063f2063ec063ea063e5063e0063dc063d5063d4063d3063d1063ce063c8063c5063c1063bd063af063ae063ad063a6063a4,
  0x064540645306452064510644f0644b0643f0643d06435064300642f0642a06429064250642406422064200641e064180641406412064100640a06409,
  0x064a10649f0649d0649b064990649806491064900648f06487064850647d0647b06474064730646d0646306461064600645f0645d0645c0645b0645a,
  0x064f0064ed064ea064e9064e5064e4064d7064d5064d1064d0064ce064cc064cb064ca064c9064c4064bf064be064bd064b3064ac064a8064a6064a3,
  0x0653c0653a065310652e0652906526065220651f0651e0651b065190651606514065130650f0650a06509065080650406501064ff064fb064f7064f5,
  0x065ae065a6065a3065a00659d0659806595065920658a06585065810657d0657a0656b06567065600655f0655406552065500654906547065430653d,
  0x06609066080660406600065ff065fe065f9065f5065f4065f2065f0065df065d8065d6065d4065d0065ce065c9065c8065c2065bf065b4065b3065b2,
  0x066450664006637066390663306631066300662e0662c0662b0662a0662906626066240662306622066210661e0661d066160661506612066110660d,
  0x0667b0667906678066770667f06675066730667e0666c0666b0666a066fb06661066600665c0665b0665906658066570664e066510664c0664a06646,
  0x066c8066c3066c2066c0066bf066bb066b5066b2066b1066ad066a4066a00669f0669c0669b0669a0669906692066900668d0668c0668b0667c06680,
  0x0674806747067450673e0673306722067200671c06719067130670e0670706705066fa066ee066ec066eb066e8066df066db066d4066cf066ce066cc,
  0x067b5067b2067b1067b00679b06799067980679606793067910678f0678e06784067810677b06776067740676e0676c067660675d06755067540674c,
  0x0681d068190681406852067f7067f6067f2067f0067e6067e1067dc067d9067d7067d2067c9067c8067c5067c3067c2067c0067f9067bd067bc067bb,
  0x06871068700686f0686e0686b0685b0685806857068550684c0684a06845068440683f0683b0683306831068300682f0682d0682c06827068280681f,
  0x068c8068c5068bb068b2068ae068aa068a9068a5068a3068a10689c0689a0689806896068880688606884068820687c0687b0687a068790687506872,
  0x0690906906068fd068fc068fb068f6068f5068f1068f0068ed068ec068eb068ea068e8068e5068dd068dc068d9068d6068d3068d1068d0068cf068cc,
  0x0696c0696906968069660696506964069630695b069570694e0694906945069420693b0693806935069330693106917069160691306911069100690a,
  0x069c8069c5069bc069ba069b8069b7069af069ad069ab069a8069a6069a5069a10699806996069920698d069800697f0697b0697a069720697106970,
  0x06a3206a3006a2806a2406a2006a1d06a1a06a1506a1106a0f06a0306a0106a00069fe069f5069f3069f1069ef069ee069e5069e2069d7069d6069d1,
  0x06a8306a8106a7e06a7306a7106a6a06a6706a6406a5b06a5606a5506a5206a5106a5006a4e06a4a06a4906a4606a4506a3f06a3e06a3b06a3706a34,
  0x06ad406ad006acc06ac806ac906ac606abf06abe06abd06ab406ab106ab006aaf06aab06aa506a9f06a9e06a9d06a9b06a9106a8b06a8906a8706a86,
  0x06b2406b1e06b1b06b1706b1106b1006b0f06b0906b0706b0606b0306b0206afd06afc06af206af106af006aec06ae706ae406add06adc06ad606ad5,
  0x06b8206b7e06b7d06b7506b7006b6e06b6b06b6706b6006b5d06b5806b5606b5206b4d06b4a06b4606b3f06b3b06b3606b3506b2f06b2c06b2b06b28,
  0x06be106bda06bd606bcc06bc906bc406bc306bbe06bbd06bb906bb806bb006bae06bad06bac06ba906ba806ba306ba206ba006b9f06b9b06b9706b85,
  0x06c3306c2e06c2c06c2806c2706c2606c1f06c1906c1206c1006c0e06c0d06c0906c0506c0406c0206bff06bf906bf706bf106bee06be706be606be3,
  0x06c8606c8506c7b06c7906c7806c7606c7406c6f06c6d06c6b06c5c06c5b06c5906c5406c5206c4f06c4d06c4b06c4a06c3f06c3b06c3a06c3606c35,
  0x06ce706ce006cdc06cda06cd606cd406cd206cd106cd006ccf06ccd06cc606cc206cb406cb206cb006c9f06c9c06c9806c9706c9506c9406c8906c87,
  0x06d3f06d3c06d3906d3106d2f06d2e06c6706d2806d2706d2606d1a06d1306d1106d0f06d0e06d0a06d0706d0406cf406cf206cee06cec06ceb06ce9,
  0x06dbf06dbd06db906db706db406dac06daa06d9806d9706d9606d9406d9206d9106d8706d8206d7c06d7006d6f06d6706d6506d6106d5f06d5e06d57,
  0x06e3206e2706e2206e1e06e0406e0006dfc06df606df406df006def06de906de506de206de006ddf06ddd06ddb06dd606dcf06dce06dca06dc806dc4,
  0x06e7d06e7b06e7306e6806e6306e6206e5e06e5d06e5c06e5706e5406e5306e5206e5106e4f06e4b06e4906e4806e4506e4406e3c06e3b06e3906e36,
  0x06ef906eee06eed06eeb06ecf06ece06ecd06eca06ec806ec706ec306ec106ec006ebf06ebb06eb306eb106eae06ead06ea706ea006e9906e9306e8d,
  0x06f5206f5106f4f06f2d06f3c06f3b06f3606f3306f3006f2f06f2a06f2906f2606f1b06f1a06f1806f1606f0d06f0c06f0a06f0806f0406efd06efb,
  0x06f9a06f9606f9406f9306f9206f9006f8d06f8c06f8b06f8806f8706f8306f7e06f7d06f6c06f6806f6206f6106f5e06f5d06f5a06f5906f5706f53,
  0x06ffc06ff906ff506ff006fe906fe806fde06fda06fca06fc806fc706fc506fbc06fb606fb506fb006faf06fae06fa806fa706fa606fa506fa006f9f,
  0x0705e0705d07055070540704b0704a070490704807044070430703c0703907037070340702f0702307020070170700d0700707006070050700006ffd,
  0x070ca070b7070b4070b1070b0070ab070a40709b07098070970709607095070940708607085070810707e07076070750706e0706c07065070640704e,
  0x07131071300712f0712d0712b071200711e0710f0710c0710b0710707106071050710407103070fa070e4070dc070d8070d6070d5070d4070d3070d1,
  0x071a00719b0719a071920718c0718707185071800717907168071600715e0715c0715a0715707152071500714b0714a0714707146071450714107138,
  0x0721307209072080720707200071fe071f8071dc071da071d9071d6071d3071cc071cb071c4071c1071c0071bf071ba071b3071b2071b0071af071a2,
  0x072600725e0725c0725a072560725507253072500724f0724e072450724307242072410723907238072340722f0722b072240721f0721d0721a07217,
  0x072c1072be072b4072b1072ae072ad072a80729b072930728e0728d07289072840727f0727c0727b0727807277072710726f0726e0726b0726807263,
  0x0731e073190731807313073120730d0730b07307073050730407302072fe072fb072fa072f4072f3072e5072df072d8072d6072d5072cc072c9072c7,
  0x073690736707366073600735f0735e0735d073580735607352073500734d073430733d0733b0733a0733507332073310732c07328073270732407322,
  0x073a2073a00739f0739e0739c07398073970739507393073900738e07386073850738307381073800737c0737907377073710736f0736e0736c0736b,
  0x073e3073e1073dd073d9073d6073d3073d2073cf073cc073cb073c9073c6073c5073bf073bd073bc073b9073b7073b5073ad073ab073aa073a6073a5,
  0x0742a074290742807426074240741b0741a074110740a07407074040740107400073ff073fd073fb073fa073f9073f7073f5073f4073e9073e7073e6,
  0x0746b074680746707466074620745d0745707452074510744d0744b07447074460744407443074400743907431074300742f0742e0742d0742c0742b,
  0x074a8074a6074a3074a1074a00749f0749c0749a07499074980749207491074900748f07489074870748607485074810748007472074710746e0746d,
  0x074ea074e8074e4074df074de074db074da074d8074d3074d0074cc074c9074c8074bf074bb074b9074b5074b2074b1074af074ae074ab074aa074a9,
  0x075400753f0753e0753d07539075360752f0752a075290752707524075210752007517075160751207506074ff074fc074fb074fa074f4074ef074eb,
  0x0759507593075920759007585075810757e0757d0757c0757b0757a07579075710756f075610755f0755e0755707552075500754e075480754707543,
  0x075ef075ee075ec075e7075e4075e1075e0075df075dc075d7075cf075ce075cc075c6075c4075c1075c0075bf075ba075b4075a4075a20759c07599,
  0x076290762607625076230761e0761d0761c0761b07619076160761507613076120760f0760c0760a076080760707604076030760207600075f9075f1,
  0x0766f0766e0766d07665076640765f07659076550764b0764907645076440764307641076400764a0763c0763a07639076380763507633076320762d,
  0x076c5076c1076bd076ad076aa076a8076a7076a6076a5076a4076a3076a2076a00769f0769d0769c0769b076950768d0768c07685076810767407671,
  0x07719077170771507714077120770e0770a0770607700076fc076f9076f6076f1076f0076ec076e8076e6076e0076d9076d4076ce076cc076cb076c9,
  0x0775c0775707756077520774f0774e0774d0774a0774607745077420773e0773d077390773607735077340772f0772e0772d07728077220771c0771a,
  0x077a20779f0779a0779607795077940778d0778c07784077800777d0777a077740777307772077700776c0776a077670776407762077600775f0775e,
  0x077f8077f4077f1077f0077ec077ea077e6077e4077e0077df077de077d9077d5077d2077d1077c9077c3077be077b5077b1077af077ae077aa077a7,
  0x0785c078520784e0784c078480784707844078430783707835078300782e0782d0782307822078210781d078110780e0780d078090780607805077fb,
  0x078b1078b0078ad078ac078a8078a40789f0789e0789d078a107898078940788f0788a0787e0787a0786e0786a07868078640786307861078600785e,
  0x07900078f3078f2078ea078e6078e1078e0078df078db078e4078d6078d5078d3078d2078ce078cc078c9078c8078c7078bf078bd078bb078b3078b2,
  0x079440793f0793d0793b0793507934079310792d079290792707925079200791f0791e0791c0791a079100790c07906078ff078fb078fa078f7078f6,
  0x079950799407993079910798c0798b0797e0797c0797b07979079720796b07969079670795c0795b0795807954079510794f0794b0794a0794607945,
  0x079de079dd079da079d6079d4079cf079ca079c8079c7079c4079c2079bb079b8079b4079b1079af079ab079a9079a8079a10799c0799b0799807996,
  0x07a2f07a2d07a2b07a2707a2107a1e07a1b07a1507a1107a0c07a0a07a0907a0707a0307a02079fc079f8079f1079ed079eb079ea079e5079e2079e0,
  0x07a7807a7507a6d07a6a07a6707a6507a6007a5f07a5d07a5c07a5907a5607a5507a4c07a4807a4707a4507a4407a3a07a3907a3807a3507a3407a30,
  0x07ad107ace07acc07ac907ac607abc07abb07ab907ab507ab307aac07aa307aa007a9e07a9407a9107a9007a8b07a8a07a8607a8507a8207a8007a7e,
  0x07b3407b3107b3007b2f07b2e07b2d07b2b07b2a07b2907b2707b2307b1f07b1407b0707afe07afd07afb07af407af107aec07aeb07ae907ae807adb,
  0x07b9b07b9607b9107b9007b8e07b8907b8407b7707b7307b7207b6f07b6d07b6a07b6907b6607b6407b6007b5507b4e07b4707b4107b4007b3f07b3d,
  0x07be807bdb07bda07bd907bd707bd607bd407bca07bc807bc507bc207bbd07bbc07bbb07bba07bb607bb507bb207bb007baf07bac07ba507ba007b9e,
  0x07c2607c2507c2007c1b07c1907c0f07c0e07c0c07c0b07c0907c0607c0407c0307c0207c0107bfe07bfc07bfa07bf907bf807bf507bf407bf207bea,
  0x07c6907c6707c6307c6107c5e07c5d07c5c07c5b07c5a07c5907c5307c5207c5107c5507c4a07c4607c3a07c3907c3607c3407c3307c3107c2c07c28,
  0x07cc807cc707cc407cbf07cbc07cbb07cba07cb707cb607cb007ca607ca007c9e07c9407c8f07c8707c8607c7d07c7c07c7907c7207c7007c6e07c6d,
  0x07d1d07d1607d1307d1207d1107d0f07d0907d0807d0707d0307cf507ceb07ce907ce607cdd07cda07cd907cd707cd507cd407cd307ccf07ccd07cc9,
  0x07d6a07d6707d6507d5d07d5c07d5a07d5907d5707d5307d5107d4d07d4807d4707d4107d4007d3e07d3d07d3c07d3107d2d07d2a07d2607d2307d1e,
  0x07db607db307daa07da707da607d9e07d9d07d9707d9607d9107d8d07d8c07d8b07d8807d8607d8507d8307d8207d8107d7f07d7b07d7a07d7807d70,
  0x07dfa07df907df607df507df107ded07deb07dea07de607de507de207e0007dd907dd707dce07dcd07dcc07dc607dc507dc407dc307dc207db907db7,
  0x07e5f07e5807e5207e5007e4e07e4707e4507e4407e3f07e3607e3307e2f07e2d07e2c07e2807e2707e2007e1d07e1c07e1707e1507e1107e1007e08,
  0x07f3e07f3d07f3b07f3c07e9e07e9d07e9a07e9807e9507e9107e8d07e8a07e8707e8607e8107e7e07e7807e7307e6f07e6e07e6b07e6507e6207e61,
  0x07f8f07f8d07f8b07f8007f7f07f7e07f7d07f7107f6d07f6607f6507f6407f6307f6107f5d07f5c07f5b07f5307f5207f4f07f4707f4407f4307f3f,
  0x07fec07fe807fe507fe307fdf07fdb07fcf07fce07fc807fc307fc007fbf07fbc07fb407fad07faa07fa607fa207fa107f9c07f9707f9607f9107f90,
  0x0802c0802608024080200801f0801e0801d080160801408013080110800f0800e0800d0800a080080800707fff07ffe07ffd07ffa07ff207fef07fee,
  0x080a7080a60809e0809c0808e080880808108075080710806d08066080640806008044080400803e0803c0803a08039080370803508034080300802e,
  0x081160810b08103080fe080fa080f9080f6080f3080f2080f0080ee080ed080e0080d8080d7080d5080d4080d2080cf080cd080c8080b9080b8080ab,
  0x0816d081690816808167081610816008157081520814c0814a08147081450813c0813a08135081300812c0812708124081200811e0811c0811808117,
  0x081cf081ce081ca081c5081c3081cb081bb081b4081b2081ae081a20819e0819b08198081960818e0818b0818608185081840819008181081770816f,
  0x0821908214082130820f0820308200081ff081fd081f9081f8081f6081f5081f2081f1081f0081ec081eb081e4081e1081de081dd081db081d7081d5,
  0x0827b082740826d0826708263082600825c08256082510824f0824e0824b082460824508244082430823a08234082320822808222082210821d0821a,
  0x082aa082a9082a8082a7082a4082a3082a1082a00829b0829a082980829608294082910828e0828a0828908287082840828308281082800827f0827d,
  0x082fe082fd082f7082f6082ef082ed082ea082e8082e4082e2082e0082da082d5082d0082c6082bf082be082bc082ba082b7082b4082b2082b0082ae,
  0x08343083420833d0833c0833a0833708333083300832e0832d0832c08322083210831f0831e0831d0831b083540830b0830a08308083070830108300,
  0x0839c0839b08399083980839508394083920838d083860838408382083800837f0837d0837808370083570835608355083510834e0834d0834708344,
  0x0840608401083fc083f9083f8083f6083ea083e808353083dd083d4083d1083d0083cf083c9083c7083c0083bf083be083ac083a9083a7083a60839d,
  0x0846508464084600845c0845a08459084580845608452084510844f0844d0844a084480844708445084390842f083ad0841908415084110840f0840a,
  0x084bd084ba084b4084b1084af084aa084a9084a8084a60849e08495084930849208485084810847d0847c08478084760847408473084700846a08467,
  0x0850c085070850308502084fd084fb084fa08532084f7084f2084f1084f0084ef084ea084e7084dc084d3084cf084cc084c8084c7084c2084c0084be,
  0x0855908556085530855208551085500854f085460853f0853608534085330852f0852b0852a08527085250852408523085220851e0851c085100850e,
  0x08598085930858f0858c0858b085890858608585085810857f0857d0857b0857a085790856f0856b085640856208561085600855f0855e0855d0855c,
  0x085e0085df085da085d8085ad085ce085cb085ca085c7085c2085bf085be085bd085bc085b8085b7085b6085b4085a7085a5085a2085a00859f0859d,
  0x08638086360862908627086210861e0861b08619086180861208611086100860e0860d086050860408600085ff085fc085f6085f3085ed085e8085e6,
  0x0867708676086750866f0866c0866908664086630866208661086600865d0865908658086570865608653086520864608642086400863d0863c0863a,
  0x086c5086c3086c1086c0086bf086b9086b8086b7086b5086b4086b3086b1086ad086a8086a7086a6086a10869c0869a0869808696086910868d0867a,
  0x087190871408713087100870f0870e0870b087070870508704086fd086fc086fa08688086e7086e5086e3086e0086dc086da086d7086d5086d2086d1,
  0x0876f0876508764087610875d087580874d0874508743087400873e0873d0873c0873a0873908732087310872f0872e0872808723087210871f0871e,
  0x087ad087ac087a7087a3087a00879e0879908798087970879508793087900878c0878b087890878808787087860878508784087830877b0877208771,
  0x087f3087f1087ed087eb087ea087e4087e3087e2087df087dc087da087d9087d6087d5087ce087ca087c9087c8087c1087bf087be087b5087b1087ae,
  0x088300882e0882d088280881f0881e0881c0881b0881a0881808814088130881208819088100880b0880a08809088060880308801087ff087fa087f8,
  0x08879088710886908864088600885f0885c0885a088580885608855088510884e0884b0884a08849088480884508843088410883c0883a0883508832,
  0x088de088db088d3088d2088d1088ce088cd088cc088cb088ca088c0088be088bd088ba088aa088a8088a00889f0889c0889b0889a08898088800887b,
  0x089320893108930089280892708926089200891c0891a089190891808916089150890f0890e0890d0890608901088f7088f5088f1088f0088ef088e7,
  0x0897a0897508973089700896e0896b0896308962089610895c0895b0895a08957089520894f08949089460894508942089400893e0893a0893908935,
  0x089d8089d7089d6089d5089d4089bc089b7089b6089b5089b4089b0089a5089a00899f0899c0899b0899508994089900898d089890897d0897c0897b,
  0x08a2b08a2608a2408a2208a2008a1e08a1508a1408a1208a1108a0f08a0708a0508a04089ff089fd089f9089f6089f3089f1089ed089eb089e9089e5,
  0x08a7608a7508a6708a6508a6108a5d08a5c08a5808a5708a5608a5308a4e08a4d08a4908a4708a4508a4308a4008a3e08a3d08a3708a3508a2f08a2c,
  0x08ab708ab608ab308aaf08aae08aa908aa708a9f08a9908a9708a9608a9208a9008a8f08a8b08a8608a8308a8008a7f08a7e08a7b08a7a08a7908a77,
  0x08b0b08b0608b0508aff08afc08af608af508af408af008aec08adf08add08ad708ad508ad408ad308ad108aca08ac908ac808ac608ac308abe08abb,
  0x08b7608b6d08b6308b5e08b4d08b5908b5408b5308b5208b4808b4608b4508b4408b4308b4208b3c08b3708b3008b2d08b0a08b1f08b1e08b1c08b11,
  0x08c4f08c4b08c4908c4708c4508c3e08c3d08c3908c3808b9f08b9e08b9c08b9508b9408b8f08b8d08b8b08b8508b8408b8108b7e08b7c08b7908b78,
  0x08c9208c9008c8b08c8708c8608c7e08c7b08c7608c7508c7308c6d08c6908c6808c6608c6408c6308c5908c5d08c5b08c5808c5708c5408c5308c51,
  0x08cf708cf508cf208cf008cef08cec08ce808ce108cdd08cd908cd508cd608ccf08ccb08cc908cc608cc508cba08cb908ca408c9c08c9b08c9908c93,
  0x08da008d9f08d9e08d9508d9108d9008d8d08d8808d8408d8208d7f08d6e08d6c08d6908d6508d1b08d1708d1208d0908d0308d0108cff08cfe08cf8,
  0x08de708de508de408dd908dd708dd508dd408dd108dce08dca08dc808dc708dc608dc508dc008dbb08db908db708db508db208daf08dac08dab08da6,
  0x08e3608e3308e3108e2708e2608e2308e2208e2108e2008e1608e1408e1108e0b08e0608e0508e0408e0108dfd08df408df208df108dbc08df008dec,
  0x08e7908e7108e7008e6f08e6d08e6c08e6908e6208e6108e5e08e5d08e5c08e5b08e5408e4f08e4e08e4d08e4b08e4108e4008e3d08e3908e3808e37,
  0x08ec308ec108ec008ebb08eba08eb508eb308eae08ead08ea908ea708ea208e9e08e9d08e9b08e9a08e9508e9208e9008e8908e8308e8208e7b08e7a,
  0x08f1e08f1808f1708f1608f1008f0f08f0808f0708f0208f0008eed08efa08ef908ef708ef108ef008eee08ee808edc08ed408ed108ecf08ec708ec4,
  0x08f5508f5408f5308f5208f5108f4f08f4708f4308f4108f4008f3a08f3708f3608f3508f3408f2e08f2d08f2c08f2808f2708f2508f2308f2108f20,
  0x08fd508fd308fd208fd008fcd08fcb08fca08fc608fc108fc008fbe08fb808fb608fb508fa608fa508fa408fa108fa008f9d08f6508f5e08f5d08f58,
  0x09034090330902d0902c0902a0902f09029090280901b090180900c09008090040900208ffe08ffb08ff608ff508ff108fee08fe808fe408fe308fe0,
  0x09099090980909709095090900908e0908c0908b09088090850907909074090700906c0906709066090620905d0905b0904c09044090430903f09037,
  0x090dd090dc090d9090d8090d7090d5090c8090c7090c5090c4090c3090be090cc090bd090b6090b4090b3090b2090b0090a5090a2090a1090a00909b,
  0x0911e0911c0911a09118091170911609114091100910d0910809106091050910409100090ff090fe090f4090f0090ef090eb090f6090d2090e5090df,
  0x0915a0915909157091530914f0914809147091430913d0913c0913a09139091370913609134091310912f0912e091290912709123091220912509120,
  0x091a8091a6091a10919e09198091950919409193091910918e0918a091860918509183091810917b0917a09179091740916d0916709164091610915b,
  0x091e9091e5091e4091de091da091d9091d7091d4091d3091c5091c3091c2091bf091bd091bc091bb091b6091b3091b2091b1091b0091ae091ad091ac,
  0x092160921309212092100920c0920a09209092070920609205092040920109200091fd091fb091f9091f7091f1091f0091ef091ee091ed091ec091ea,
  0x09247092460924309242092400923e0923c0923a0923909238092360923509233092300922f0922e09228092260922509224092230921d0921c09218,
  0x0927b0927909278092770927609275092700926f0926e0926909268092670926509261092600925d0925c0925909258092510924f0924e0924d0924a,
  0x092bb092ba092b8092b6092b2092af092ab092a8092a7092a5092a4092a00929f0929909297092920928e0928d0928a09289092880927f0927d0927c,
  0x092df092dd092dc092d9092d8092d7092d5092d3092d0092ce092cd092cc092cb092c8092c7092c6092c5092c3092c2092c1092c0092bf092bd092bc,
  0x093210931f0931e0931d0931c0931509314093110930d093080930209300092ff092fb092f9092f0092ee092ec092e8092e7092e5092e3092e1092e0,
  0x093690936709365093640935e0935a093580935709355093520935109350093490934809347093370933609334093330932a09329093270932509324,
  0x0939e0939b0939809395093920938f0938d0938b0938a093880938209381093800937f0937d0937a09376093740937309371093700936f0936d0936a,
  0x093dc093d9093d3093cd093cc093cb093ca093c9093c7093c6093c5093c4093c1093a9093ba093b6093b5093b4093ab093a8093a6093a4093a3093a1,
  0x0942e0941f0941709416094150940f0940e0940d0940909408094040940209401093fd093fb093fa093f8093f7093f9093e7093e6093e2093df093de,
  0x0946f0946e0946d0946b0946809463094610945f0945c09459094550944c0944a0944809445094430943d0943f0943b094340943309432094310942f,
  0x095bd095ba095b6095b4095ac095ab095a9095a6095a10959f0959e0959d0958e0958d0958c09588095840957e095790957809483094840947209471,
  0x0962c096260962509624096220961e0961d095e6095e4095e0095df095de095dd095da095d9095d3095d2095d1095d0095cb095c9095c8095c6095bf,
  0x0968309682096810967f0967e0967c0967b096740966e096610965809657096560965409652096410963d0963c0963a0963909638096370963309631,
  0x096e9096df096de096dd096da096d805db2096d2096ca096ba096b3096af096ae096a9096a6096a5096a40969f0969d0969a09696096910968909684,
  0x0975809757097550974f0974e0974a09743097410973309731097280972309722097210971d0971b0971a09709097050970309702096fa096f1096ef,
  0x097ac097a20979f0979e0979a0979909797097960979509789097800977f0977d0977b097780977709776097730976e0976a09767097630975b0975a,
  0x097d7097d4097d1097d0097ce097cd097cc097ca097c9097c7097c5097c4097c1097bf097be097bc097ba097b9097b8097b6097b5097b2097b1097ae,
  0x098200981e0981c09816098140980e0980d098190980a09807097fa097f8097f7097f4097f1097ef097e4097e1097db097e0097de097dd097d9097d8,
  0x0986509863098620985a0985909857098560985309852098510984a09847098440983e09825098350983309832098300982f0982e0982b0982609823,
  0x098f3098ea098e7098e6098e5098e3098e1098cc098c8098c5098c2098bf098bb098ba098b8098b7098b4098b0098ae098ad098ab0986c0986a09866,
  0x0993b0993a0993909935099340993309932099310992b0992709926099220991f0991c0991b0991a09917099160991509911099080990709902098f6,
  0x099b5099b2099b1099b0099a60999f0999d0999b099600995f0995e0995c0995b0995909958099540994e0994d09948099470994609941099400993c,
  0x09a0309a02099fe099fd099f9099f5099f4099f0099ec099eb099ea099e7099de099dc099da099d9099d4099d3099c9099c3099bf099bd099ba099b9,
  0x09a4c09a4b09a4a09a4409a4109a4709a3809a3609a3509a3309a2e09a2d09a2709a2409a2309a2209a2009a1e09a1609a1109a1009a0c09a0b09a04,
  0x09ad209ad009ace09ac809ac609ac309ac109abf09abe09abb09ab909ab609ab509ab409ab209aaf09aae09aac09aaa09a5d09a5609a5409a5109a4e,
  0x09b0509b0409b0309b0209b0109b0009aff09afd09afa09af909af509af309af209aec09ae909ae709ae509ae409ae009adc09adb09ad709ad609ad5,
  0x09b4809b3d09b3a09b3909b3709b3509b3409b3309b2d09b2b09b2609b2009b1c09b1b09b1909b1609b1209b1009b0e09b0d09b0c09b0b09b0909b08,
  0x09b8009b7f09b7909b7809b7709b7509b7309b6e09b6d09b6c09b6b09b6a09b6809b6609b6509b6309b6109b5e09b5b09b5709b5609b5509b4c09b4b,
  0x09bbb09bb809bb709bb209bb109bb009bac09ba909ba709ba609b9e09b9d09b9a09b9409b9009b8f09b8d09b8b09b8a09b8909b8709b8609b8509b84,
  0x09bff09bfd09bfa09bf909bf809bf709bf309bef09beb09bea09be709be509bdf09bdd09bd809bd709bd009bce09bc809bc709bc109bbf09bbe09bbc,
  0x09c4109c3d09c3709c3609c3509c3109c2a09c2909c2809c2709c2609c2309c2209c1e09c1c09c1a09c1909c1809c1609c1109c0f09c0b09c0209c00,
  0x09c7009c6e09c6809c6b09c5c09c6a09c6909c6309c5f09c5e09c5d09c5b09c5809c5609c5409c5309c5009c4f09c4e09c4a09c4909c4509c4409c43,
  0x09d4509d3c09d3a09d3409d3309d3209d3009d2f09d1e09d1d09d1c09d1809d1709d1109d0209d0b09cf909cf709cf209ce609c7b09c7709c7509c72,
  0x09d8a09d8609d8409d8309d7e09d7c09d7b09d7709d7609d7009d6b09d6a09d6909d6509d6209d6309d5f09d5409d5309d4a09d4709d4309d4209d3d,
  0x09dd609dd509dd409dca09dc909dc709dc309dbf09dbc09db909db509db109dae09dac09daa09da109d9809d9709d9609d9509d9309d9209d8e09d8d,
  0x09e1909e1609e1509e1209e1109e1009e0e09e0709e0209e0a09dfe09df409df309df009dee09deb09de909de709de509de009ddf09dde09dda09dd7,
  0x09eb309eb009eaf09eae09eac09ea809ea409e9e09e9b09e9809e9609e8f09e8e09e8709e8509e8409e8309e8209e8009e7c09e7b09e7a09e1d09e1c,
  0x09f1109f1009f0f09f0909f0309f0209eff09ef809ef509ef209ef109ef009eee09eed09eec09ee709ee409edf09ed509ecb09ec809ec609eb509eb4,
  0x09f4309f4109f3f09f3d09f3c09f3a09f3909f3709f3409f3209f3109f2f09f2b09f2a09f2609f2209f1f09f1b09f1a09f1909f1709f1609f1409f12,
  0x09f8f09f7d09f7a09f7509f7309f7109f7009f6f09f6e09f6d09f6909f6809f5e09f5d09f5a09f5809f5709f5609f5509f5309f4709f4609f4509f44,
  0xfffffffffffffffffffffffffffffffffffffffffffffffffffffffffffffffff09fa509fa309fa209fa109f9e09f9709f9609f9409f9209f9109f90,
  0xffffffffffffffffffffffffffffffffffffffffffffffffffffffffffffffffffffffffffffffffffffffffffffffffffffffffffffffffffffffff,
  0xffffffffffffffffffffffffffffffffffffffffffffffffffffffffffffffffffffffffffffffffffffffffffffffffffffffffffffffffffffffff,
  0xffffffffffffffffffffffffffffffffffffffffffffffffffffffffffffffffffffffffffffffffffffffffffffffffffffffffffffffffffffffff,
  0xffffffffffffffffffffffffffffffffffffffffffffffffffffffffffffffffffffffffffffffffffffffffffffffffffffffffffffffffffffffff,
  0xffffffffffffffffffffffffffffffffffffffffffffffffffffffffffffffffffffffffffffffffffffffffffffffffffffffffffffffffffffffff,
  0xffffffffffffffffffffffffffffffffffffffffffffffffffffffffffffffffffffffffffffffffffffffffffffffffffffffffffffffffffffffff,
  0xffffffffffffffffffffffffffffffffffffffffffffffffffffffffffffffffffffffffffffffffffffffffffffffffffffffffffffffffffffffff,
  0xffffffffffffffffffffffffffffffffffffffffffffffffffffffffffffffffffffffffffffffffffffffffffffffffffffffffffffffffffffffff,
  0xffffffffffffffffffffffffffffffffffffffffffffffffffffffffffffffffffffffffffffffffffffffffffffffffffffffffffffffffffffffff,
  0xffffffffffffffffffffffffffffffffffffffffffffffffffffffffffffffffffffffffffffffffffffffffffffffffffffffffffffffffffffffff,
  0xffffffffffffffffffffffffffffffffffffffffffffffffffffffffffffffffffffffffffffffffffffffffffffffffffffffffffffffffffffffff,
  0xffffffffffffffffffffffffffffffffffffffffffffffffffffffffffffffffffffffffffffffffffffffffffffffffffffffffffffffffffffffff,
  0xffffffffffffffffffffffffffffffffffffffffffffffffffffffffffffffffffffffffffffffffffffffffffffffffffffffffffffffffffffffff,
  0xffffffffffffffffffffffffffffffffffffffffffffffffffffffffffffffffffffffffffffffffffffffffffffffffffffffffffffffffffffffff,
  0xffffffffffffffffffffffffffffffffffffffffffffffffffffffffffffffffffffffffffffffffffffffffffffffffffffffffffffffffffffffff,
  0xffffffffffffffffffffffffffffffffffffffffffffffffffffffffffffffffffffffffffffffffffffffffffffffffffffffffffffffffffffffff,
  0xffffffffffffffffffffffffffffffffffffffffffffffffffffffffffffffffffffffffffffffffffffffffffffffffffffffffffffffffffffffff,
  0xffffffffffffffffffffffffffffffffffffffffffffffffffffffffffffffffffffffffffffffffffffffffffffffffffffffffffffffffffffffff,
  0xffffffffffffffffffffffffffffffffffffffffffffffffffffffffffffffffffffffffffffffffffffffffffffffffffffffffffffffffffffffff,
  0xffffffffffffffffffffffffffffffffffffffffffffffffffffffffffffffffffffffffffffffffffffffffffffffffffffffffffffffffffffffff,
  0xffffffffffffffffffffffffffffffffffffffffffffffffffffffffffffffffffffffffffffffffffffffffffffffffffffffffffffffffffffffff,
  0xffffffffffffffffffffffffffffffffffffffffffffffffffffffffffffffffffffffffffffffffffffffffffffffffffffffffffffffffffffffff,
  0xffffffffffffffffffffffffffffffffffffffffffffffffffffffffffffffffffffffffffffffffffffffffffffffffffffffffffffffffffffffff,
  0xffffffffffffffffffffffffffffffffffffffffffffffffffffffffffffffffffffffffffffffffffffffffffffffffffffffffffffffffffffffff,
  0xffffffffffffffffffffffffffffffffffffffffffffffffffffffffffffffffffffffffffffffffffffffffffffffffffffffffffffffffffffffff,
  0xffffffffffffffffffffffffffffffffffffffffffffffffffffffffffffffffffffffffffffffffffffffffffffffffffffffffffffffffffffffff,
  0xffffffffffffffffffffffffffffffffffffffffffffffffffffffffffffffffffffffffffffffffffffffffffffffffffffffffffffffffffffffff,
  0xffffffffffffffffffffffffffffffffffffffffffffffffffffffffffffffffffffffffffffffffffffffffffffffffffffffffffffffffffffffff,
  0xffffffffffffffffffffffffffffffffffffffffffffffffffffffffffffffffffffffffffffffffffffffffffffffffffffffffffffffffffffffff,
  0xffffffffffffffffffffffffffffffffffffffffffffffffffffffffffffffffffffffffffffffffffffffffffffffffffffffffffffffffffffffff,
  0xffffffffffffffffffffffffffffffffffffffffffffffffffffffffffffffffffffffffffffffffffffffffffffffffffffffffffffffffffffffff,
  0xffffffffffffffffffffffffffffffffffffffffffffffffffffffffffffffffffffffffffffffffffffffffffffffffffffffffffffffffffffffff,
  0xffffffffffffffffffffffffffffffffffffffffffffffffffffffffffffffffffffffffffffffffffffffffffffffffffffffffffffffffffffffff,
  0xffffffffffffffffffffffffffffffffffffffffffffffffffffffffffffffffffffffffffffffffffffffffffffffffffffffffffffffffffffffff,
  0xffffffffffffffffffffffffffffffffffffffffffffffffffffffffffffffffffffffffffffffffffffffffffffffffffffffffffffffffffffffff,
  0xffffffffffffffffffffffffffffffffffffffffffffffffffffffffffffffffffffffffffffffffffffffffffffffffffffffffffffffffffffffff,
  0xffffffffffffffffffffffffffffffffffffffffffffffffffffffffffffffffffffffffffffffffffffffffffffffffffffffffffffffffffffffff,
  0xffffffffffffffffffffffffffffffffffffffffffffffffffffffffffffffffffffffffffffffffffffffffffffffffffffffffffffffffffffffff,
  0xffffffffffffffffffffffffffffffffffffffffffffffffffffffffffffffffffffffffffffffffffffffffffffffffffffffffffffffffffffffff,
  0xffffffffffffffffffffffffffffffffffffffffffffffffffffffffffffffffffffffffffffffffffffffffffffffffffffffffffffffffffffffff,
  0xffffffffffffffffffffffffffffffffffffffffffffffffffffffffffffffffffffffffffffffffffffffffffffffffffffffffffffffffffffffff,
  0xffffffffffffffffffffffffffffffffffffffffffffffffffffffffffffffffffffffffffffffffffffffffffffffffffffffffffffffffffffffff,
  0xffffffffffffffffffffffffffffffffffffffffffffffffffffffffffffffffffffffffffffffffffffffffffffffffffffffffffffffffffffffff,
  0xffffffffffffffffffffffffffffffffffffffffffffffffffffffffffffffffffffffffffffffffffffffffffffffffffffffffffffffffffffffff,
  0xffffffffffffffffffffffffffffffffffffffffffffffffffffffffffffffffffffffffffffffffffffffffffffffffffffffffffffffffffffffff,
  0xffffffffffffffffffffffffffffffffffffffffffffffffffffffffffffffffffffffffffffffffffffffffffffffffffffffffffffffffffffffff,
  0xffffffffffffffffffffffffffffffffffffffffffffffffffffffffffffffffffffffffffffffffffffffffffffffffffffffffffffffffffffffff,
  0xffffffffffffffffffffffffffffffffffffffffffffffffffffffffffffffffffffffffffffffffffffffffffffffffffffffffffffffffffffffff,
  0xffffffffffffffffffffffffffffffffffffffffffffffffffffffffffffffffffffffffffffffffffffffffffffffffffffffffffffffffffffffff,
  0xffffffffffffffffffffffffffffffffffffffffffffffffffffffffffffffffffffffffffffffffffffffffffffffffffffffffffffffffffffffff,
  0xffffffffffffffffffffffffffffffffffffffffffffffffffffffffffffffffffffffffffffffffffffffffffffffffffffffffffffffffffffffff,
  0xffffffffffffffffffffffffffffffffffffffffffffffffffffffffffffffffffffffffffffffffffffffffffffffffffffffffffffffffffffffff,
  0xffffffffffffffffffffffffffffffffffffffffffffffffffffffffffffffffffffffffffffffffffffffffffffffffffffffffffffffffffffffff,
  0xffffffffffffffffffffffffffffffffffffffffffffffffffffffffffffffffffffffffffffffffffffffffffffffffffffffffffffffffffffffff,
  0xffffffffffffffffffffffffffffffffffffffffffffffffffffffffffffffffffffffffffffffffffffffffffffffffffffffffffffffffffffffff,
  0xffffffffffffffffffffffffffffffffffffffffffffffffffffffffffffffffffffffffffffffffffffffffffffffffffffffffffffffffffffffff,
  0xffffffffffffffffffffffffffffffffffffffffffffffffffffffffffffffffffffffffffffffffffffffffffffffffffffffffffffffffffffffff,
  0xffffffffffffffffffffffffffffffffffffffffffffffffffffffffffffffffffffffffffffffffffffffffffffffffffffffffffffffffffffffff,
  0xffffffffffffffffffffffffffffffffffffffffffffffffffffffffffffffffffffffffffffffffffffffffffffffffffffffffffffffffffffffff,
  0xffffffffffffffffffffffffffffffffffffffffffffffffffffffffffffffffffffffffffffffffffffffffffffffffffffffffffffffffffffffff,
  0xffffffffffffffffffffffffffffffffffffffffffffffffffffffffffffffffffffffffffffffffffffffffffffffffffffffffffffffffffffffff,
  0xffffffffffffffffffffffffffffffffffffffffffffffffffffffffffffffffffffffffffffffffffffffffffffffffffffffffffffffffffffffff,
  0xffffffffffffffffffffffffffffffffffffffffffffffffffffffffffffffffffffffffffffffffffffffffffffffffffffffffffffffffffffffff,
  0xffffffffffffffffffffffffffffffffffffffffffffffffffffffffffffffffffffffffffffffffffffffffffffffffffffffffffffffffffffffff,
  0xffffffffffffffffffffffffffffffffffffffffffffffffffffffffffffffffffffffffffffffffffffffffffffffffffffffffffffffffffffffff,
  0xffffffffffffffffffffffffffffffffffffffffffffffffffffffffffffffffffffffffffffffffffffffffffffffffffffffffffffffffffffffff,
  0xffffffffffffffffffffffffffffffffffffffffffffffffffffffffffffffffffffffffffffffffffffffffffffffffffffffffffffffffffffffff,
  0xffffffffffffffffffff]

/-- `index_code_point_jis0212` (lib/whatwg/encoding/indexes_code_point.cpp:9), 8836 entries. -/
def cpJis0212 : Table := ⟨20, 8836, cpJis0212Data⟩

/-- Rows of `index_pointer_jis0212_0`. -/
def ptr0Jis0212Data : Nat := pack 480 [
  0x000cd000cc000cb000ca000c9000c8000c7000c6000c5000c4000c3000c2000c1000c0000bf000ba000b8000af000ae000aa000a9000a6000a4000a1,
  0x000e7000e6000e5000e4000e3000e2000e1000e0000df000de000dd000dc000db000da000d9000d8000d6000d5000d4000d3000d2000d1000cf000ce,
  0x00100000ff000fe000fd000fc000fb000fa000f9000f8000f6000f5000f4000f3000f2000f1000f0000ef000ee000ed000ec000eb000ea000e9000e8,
  0x0011a00119001180011700116001130011200111001100010f0010e0010d0010c0010b0010a001090010800107001060010500104001030010200101,
  0x0013500134001330013200131001300012f0012e0012b0012a0012900128001270012600125001240012200121001200011f0011e0011d0011c0011b,
  0x0014d0014c0014b0014a001490014800147001460014500144001430014200141001400013f0013e0013d0013c0013b0013a00139001380013700136,
  0x00167001660016500164001630016200161001600015f0015e0015d0015c0015b0015a00159001580015700156001550015400153001520015100150,
  0x001cd0017e0017d0017c0017b0017a001790017800177001760017500174001730017200171001700016f0016e0016d0016c0016b0016a0016900168,
  0x0038500384002dd002db002da002d9002d8002c7001f5001dc001db001da001d9001d8001d7001d6001d5001d4001d3001d2001d1001d0001cf001ce,
  0x004040040300402003ce003cd003cc003cb003ca003c2003b0003af003ae003ad003ac003ab003aa003900038f0038e0038c0038a003890038800386,
  0x021160045f0045e0045c0045b0045a00459004580045700456004550045400453004520040f0040e0040c0040b0040a0040900408004070040600405,
  0x04e6804e6304e5c04e5a04e5104e4704e4404e4104e4004e3504e3004e2f04e2e04e2b04e2804e2404e2304e1f04e1204e0c04e0504e0404e0202122,
  0x04efd04ef504ef304ef104eef04ee804ee204ee104ee004edb04eda04ed004ec304eb904eaf04e9d04e9704e9604e8d04e7f04e7904e7504e7404e69,
  0x04f4804f4204f4004f3e04f3b04f3904f3704f3504f3304f3104f2e04f1904f1704f1604f1504f1204f0c04f0b04f0804f0304f0204f0004eff04efe,
  0x04f8504f8404f8204f8104f7e04f7d04f7a04f7904f7804f7704f7104f6e04f6c04f6a04f6304f6004f5f04f5804f5604f5404f5204f4c04f4b04f49,
  0x04fc604fc504fc104fc004fbe04fbd04fbc04fbb04fb904fb704fb204f9f04f9e04f9a04f9904f9704f9404f9304f9204f9004f8e04f8c04f8a04f89,
  0x05013050100500e0500c0500a0500705004050010500004fff04ffd04ffc04ff204ff004fe204fe004fdc04fd204fcf04fcd04fcc04fcb04fc904fc8,
  0x05052050510504e0504c0504a05046050450504205041050400503b050350503305032050300502e05027050220501e0501d0501c0501b0501805017,
  0x050940509305092050900508f0508e0508a0508605084050830508105071050700506d0506a05067050660506305062050600505f050590505705053,
  0x050d8050d4050d3050d0050ce050cc050c7050c4050c3050c0050bd050ba050b9050b0050af050aa050a2050a1050a00509f0509e0509c0509b05096,
  0x05117051100510e0510d0510c0510b05108051070510605103050fe050fa050f6050f2050f1050ef050e9050e8050e6050e4050e2050df050dd050dc,
  0x051580515705155051530514f0514a051420513905138051350513405133051310512f0512d0512c0512805127051230511e0511d0511c0511b05119,
  0x051d3051d2051d1051cf051c8051c2051bf051be051bc051ba051b8051ad051a3051a10519d051980518e0518b05184051830517e05166051640515f,
  0x0523c05235052320523105228052220521805216052150521305212052050520205201051f7051f4051f3051f2051ee051e5051e2051de051d8051d5,
  0x052970529605295052930528c0528a0528505282052800527905278052770526e0526605261052600525f0525c0525a0525805257052550524905245,
  0x052d6052d4052d1052cf052cc052c8052c6052c4052c0052bd052bb052ba052b8052b7052b6052b0052af052a7052a6052a5052a40529c0529a05298,
  0x0531e0531c0531b0531805313053110530c0530b0530a0530305300052f7052f6052f4052f1052f0052ec052ea052e9052e8052e5052e1052dc052db,
  0x0536d0536c0536505363053610535b053590534c0534b053420533e0533d0533c0533505332053300532d0532c0532b053290532805327053250531f,
  0x053c0053bd053ba053b8053b7053b5053b4053b2053af053ab053aa053a4053a10539d0539905394053930538e0538805387053830537e0537905372,
  0x054430543505434054310542f0542a0542805427054210541a0541305402053f5053e7053e6053e0053de053dd053da053d5053d3053d2053cf053c5,
  0x0549605495054910548d05489054880548505483054810547f054740546e0546d0546b05469054670546605464054620545e0544f0544d0544705444,
  0x054f6054ef054ec054ea054e0054ce054cd054ca054c6054bf054bb054ba054b9054b7054b1054ae054ad054aa054a9054a7054a6054a10549f0549c,
  0x0554a0554905547055410553d0553c0553b0553605535055320552b0552a055150550e0550d0550c0550905508055050550105500054ff054fe054fc,
  0x055a305597055940559305592055910558f0558e055880558605582055810557f055660556405561055600555e0555b0555a0555805551055500554d,
  0x0560805605055ff055f6055e9055e2055de055db055d8055d7055d3055d2055d1055ce055cc055cb055c9055c6055c3055c1055bf055b2055ad055a4,
  0x0564905646056440564305641056400563f0563d0563c0563b05639056370563505633056300562c056190561205611056100560f0560e0560d0560a,
  0x0569a05699056950568c0568b0568805685056840567505672056710566f0566d0566905666056630566205661056600565e056540564f0564d0564b,
  0x056dc056d9056d0056cf056cd056cc056cb056ca056c9056c5056be056b7056b3056b1056ad056ac056ab056a9056a8056a7056a60569f0569e0569d,
  0x057200571d0571b0571a05715057110570c0570a057070570205701056f7056f6056f1056ed056eb056e8056e7056e6056e5056e4056e1056df056dd,
  0x0576b05768057670576505762057520574d0574c05746057450573f0573e0573d05734057330572f0572e0572c0572a0572905725057240572305722,
  0x0579d0579c0579a057990579705795057940578c05783057810577e0577c0577b0577a057790577705775057740577305771057700576f0576e0576d,
  0x057f5057f0057ed057e9057e7057e6057e4057e1057de057dd057d5057cf057cc057c8057c7057bd057b8057ac057a9057a8057a7057a10579f0579e,
  0x0584d0584c058490583f05839058320582d0582705826058200581f0581e0581b0580d0580c05809058080580405803057ff057fe057fd057f8057f6,
  0x0589d0589605894058900588f0588d0588c0588a05889058880588705881058800587f0587c05878058680586705864058610585f05855058500584f,
  0x05905058f3058e9058e2058e1058dd058da058d6058d4058d2058d0058ce058cd058c8058c4058c2058bc058b2058b1058a9058a6058a2058a1058a0,
  0x0595d0595b05959059530595205946059430593f059360593505933059300592f059280592405923059210591d0591405913059120590c0590b05906,
  0x059ae059ad059a7059a40599f0599705995059920598e0598c0598b0597c0597b059790597605975059720596f0596d0596b05963059610595f0595e,
  0x059f4059f2059f1059ef059ee059e7059e4059e3059df059de059dd059d2059cd059ca059c8059c4059c3059c1059bc059ba059b7059b3059b0059af,
  0x05a5e05a5505a5005a4c05a4805a4705a4505a4405a3005a2d05a2a05a2805a2705a2405a2305a1e05a1305a1205a0e05a0d05a0c05a0405a00059f7,
  0x05ab505ab305ab205ab105aac05aa705aa205aa005a9f05a9e05a9c05a9905a9605a9305a9005a8b05a7e05a7b05a7a05a7705a6d05a6705a6505a63,
  0x05b1d05b1b05b1905b1705b0805b0105b0005afd05af605af505aee05aea05ae505ae005adc05ada05acf05ac805ac605ac405abf05abb05aba05ab8,
  0x05b9005b8e05b8a05b8605b8405b8105b7f05b7e05b7d05b7c05b6f05b6e05b6805b5e05b5605b5205b4c05b4b05b4105b3805b3405b2d05b2505b21,
  0x05be005bda05bd905bd805bd705bd605bcf05bcd05bc105bc005bbc05bba05bb705bb205bb105baf05bad05bac05ba905ba805b9605b9405b9305b91,
  0x05c6705c6305c6205c5c05c5a05c5905c3605c3505c3205c3005c2e05c2c05c2b05c2905c2605c2305c1f05c1e05c1705c0c05bfd05bf405bf105bef,
  0x05cb405cb205caa05ca605ca305ca205ca005c9f05c9d05c9205c8f05c8a05c8805c8705c7d05c7c05c7b05c7a05c7505c7405c7005c6d05c6905c68,
  0x05d3d05d3905d3405d3105d2b05d2705d2605d2405d2305d1205d0d05d0605d0105cf405cf205cf105cee05cdd05cd705cd205ccb05cc905cba05cb5,
  0x05d8805d8305d8105d7f05d7e05d7a05d7905d7005d6d05d6a05d6405d6205d6105d6005d5f05d5905d5505d5105d4a05d4805d4605d4305d4205d3f,
  0x05de005dd905dd805dd005dce05dcb05dc705dc305db905db805db405db205db005dab05da705da005d9f05d9b05d9905d9505d9405d9305d9205d8a,
  0x05e5805e5605e5105e5005e4b05e4905e3e05e3505e3205e2e05e2805e2005e1f05e1805e1505e1405e1205e0d05e0705e0005df905df805de905de4,
  0x05ebf05ebe05ebd05eb305eb105eac05eaa05ea805ea505ea405ea205e8e05e8b05e8005e7005e6e05e6d05e6c05e6b05e6a05e6805e5e05e5c05e5b,
  0x05f2405f2305f2205f2105f1d05f1c05f1905f0e05f0805f0705f0605f0205eeb05ee505ede05edc05ed505ed405ed205ed105ece05ecc05ecb05ec6,
  0x05f6f05f6705f6405f6305f6005f5b05f5805f5405f5005f4d05f4705f4505f4405f4005f3f05f3d05f3b05f3605f3405f3005f2e05f2c05f2b05f28,
  0x05fc705fc405fb805fb105fb005faf05fac05fab05fa705fa405fa205f9d05f9c05f9605f8f05f8d05f8905f7e05f7d05f7a05f7805f7505f7405f72,
  0x0600705ffc05ffa05ff605ff305ff205fef05fee05fed05fec05fea05fe905fe805fe205fe105fde05fd405fd305fd205fd105fd005fcb05fc905fc8,
  0x06067060610605d060570605606054060510604c0604906048060470604006035060330602d060240601f0601a060180601706014060130600d0600a,
  0x060c2060be060bb060b7060b1060b0060a8060a5060a4060a20609e0609d060980609506093060910608e0608a0608806086060820607f0607e06071,
  0x0610c0610a0610706102060fd060fc060f8060f5060f2060e5060e2060de060dd060db060d9060d5060d4060cf060ce060cb060ca060c9060c8060c4,
  0x0615e061490614606145061410613906137061360613506131061300612b0612a061220611e0611c0611906117061160611406113061120611106110,
  0x061aa061a8061a5061a00619f0619d0619c061980619706193061920618d0618b061840618306181061800617f0617c0617b06178061720616c06160,
  0x0620306201061ef061ed061ec061e9061e7061e5061e2061e1061df061de061dd061dc061d5061cf061ce061c2061c1061c0061bc061b9061b8061ad,
  0x0625a06256062540625206251062500624c062460624406243062420623d062390622b06229062270622306222062200621c06215062130620706204,
  0x062da062d6062d5062ce062c4062bf062be062ba062b7062b6062b3062a8062a6062900628f0628e0628d0627d0627a062730626f0626d062640625c,
  0x0634306342063410633c0633906336063350632d0632a06329063180631606313063100630d0630b0630a0630406303062fd062fc062f4062f2062ea,
  0x0638706384063820637f0637d0637c063780637506374063710636d0636c06366063650635b063580635406353063520634e0634b0634a0634606344,
  0x063e5063e0063dc063d5063d4063d3063d1063ce063c8063c5063c1063bd063af063ae063ad063a6063a40639e0639a063990639506394063900638a,
  0x0643d06435064300642f0642a06429064250642406422064200641e064180641406412064100640a06409063f9063f8063f5063f3063f2063ec063ea,
  0x064900648f06487064850647d0647b06474064730646d0646306461064600645f0645d0645c0645b0645a064540645306452064510644f0644b0643f,
  0x064d5064d1064d0064ce064cc064cb064ca064c9064c4064bf064be064bd064b3064ac064a8064a6064a3064a10649f0649d0649b064990649806491,
  0x0651f0651e0651b065190651606514065130650f0650a06509065080650406501064ff064fb064f7064f5064f0064ed064ea064e9064e5064e4064d7,
  0x065920658a06585065810657d0657a0656b06567065600655f0655406552065500654906547065430653d0653c0653a065310652e065290652606522,
  0x065f5065f4065f2065f0065df065d8065d6065d4065d0065ce065c9065c8065c2065bf065b4065b3065b2065ae065a6065a3065a00659d0659806595,
  0x0662e0662c0662b0662a0662906626066240662306622066210661e0661d066160661506612066110660d06609066080660406600065ff065fe065f9,
  0x06675066730666c0666b0666a06661066600665c0665b066590665806657066510664e0664c0664a0664606645066400663906637066330663106630,
  0x066b5066b2066b1066ad066a4066a00669f0669c0669b0669a0669906692066900668d0668c0668b066800667f0667e0667c0667b066790667806677,
  0x0671c06719067130670e0670706705066fb066fa066ee066ec066eb066e8066df066db066d4066cf066ce066cc066c8066c3066c2066c0066bf066bb,
  0x0679606793067910678f0678e06784067810677b06776067740676e0676c067660675d06755067540674c0674806747067450673e067330672206720,
  0x067f2067f0067e6067e1067dc067d9067d7067d2067c9067c8067c5067c3067c2067c0067bd067bc067bb067b5067b2067b1067b00679b0679906798,
  0x0685706855068520684c0684a06845068440683f0683b0683306831068300682f0682d0682c06828068270681f0681d0681906814067f9067f7067f6,
  0x068a5068a3068a10689c0689a0689806896068880688606884068820687c0687b0687a06879068750687206871068700686f0686e0686b0685b06858,
  0x068f1068f0068ed068ec068eb068ea068e8068e5068dd068dc068d9068d6068d3068d1068d0068cf068cc068c8068c5068bb068b2068ae068aa068a9,
  0x0695b069570694e0694906945069420693b0693806935069330693106917069160691306911069100690a0690906906068fd068fc068fb068f6068f5,
  0x069ad069ab069a8069a6069a5069a10699806996069920698d069800697f0697b0697a0697206971069700696c069690696806966069650696406963,
  0x06a1506a1106a0f06a0306a0106a00069fe069f5069f3069f1069ef069ee069e5069e2069d7069d6069d1069c8069c5069bc069ba069b8069b7069af,
  0x06a6406a5b06a5606a5506a5206a5106a5006a4e06a4a06a4906a4606a4506a3f06a3e06a3b06a3706a3406a3206a3006a2806a2406a2006a1d06a1a,
  0x06abe06abd06ab406ab106ab006aaf06aab06aa506a9f06a9e06a9d06a9b06a9106a8b06a8906a8706a8606a8306a8106a7e06a7306a7106a6a06a67,
  0x06b0906b0706b0606b0306b0206afd06afc06af206af106af006aec06ae706ae406add06adc06ad606ad506ad406ad006acc06ac906ac806ac606abf,
  0x06b6706b6006b5d06b5806b5606b5206b4d06b4a06b4606b3f06b3b06b3606b3506b2f06b2c06b2b06b2806b2406b1e06b1b06b1706b1106b1006b0f,
  0x06bbe06bbd06bb906bb806bb006bae06bad06bac06ba906ba806ba306ba206ba006b9f06b9b06b9706b8506b8206b7e06b7d06b7506b7006b6e06b6b,
  0x06c1906c1206c1006c0e06c0d06c0906c0506c0406c0206bff06bf906bf706bf106bee06be706be606be306be106bda06bd606bcc06bc906bc406bc3,
  0x06c6d06c6b06c6706c5c06c5b06c5906c5406c5206c4f06c4d06c4b06c4a06c3f06c3b06c3a06c3606c3506c3306c2e06c2c06c2806c2706c2606c1f,
  0x06cd006ccf06ccd06cc606cc206cb406cb206cb006c9f06c9c06c9806c9706c9506c9406c8906c8706c8606c8506c7b06c7906c7806c7606c7406c6f,
  0x06d2706d2606d1a06d1306d1106d0f06d0e06d0a06d0706d0406cf406cf206cee06cec06ceb06ce906ce706ce006cdc06cda06cd606cd406cd206cd1,
  0x06d9806d9706d9606d9406d9206d9106d8706d8206d7c06d7006d6f06d6706d6506d6106d5f06d5e06d5706d3f06d3c06d3906d3106d2f06d2e06d28,
  0x06df606df406df006def06de906de506de206de006ddf06ddd06ddb06dd606dcf06dce06dca06dc806dc406dbf06dbd06db906db706db406dac06daa,
  0x06e5d06e5c06e5706e5406e5306e5206e5106e4f06e4b06e4906e4806e4506e4406e3c06e3b06e3906e3606e3206e2706e2206e1e06e0406e0006dfc,
  0x06eca06ec806ec706ec306ec106ec006ebf06ebb06eb306eb106eae06ead06ea706ea006e9906e9306e8d06e7d06e7b06e7306e6806e6306e6206e5e,
  0x06f3006f2f06f2d06f2a06f2906f2606f1b06f1a06f1806f1606f0d06f0c06f0a06f0806f0406efd06efb06ef906eee06eed06eeb06ecf06ece06ecd,
  0x06f8c06f8b06f8806f8706f8306f7e06f7d06f6c06f6806f6206f6106f5e06f5d06f5a06f5906f5706f5306f5206f5106f4f06f3c06f3b06f3606f33,
  0x06fda06fca06fc806fc706fc506fbc06fb606fb506fb006faf06fae06fa806fa706fa606fa506fa006f9f06f9a06f9606f9406f9306f9206f9006f8d,
  0x0704807044070430703c0703907037070340702f0702307020070170700d0700707006070050700006ffd06ffc06ff906ff506ff006fe906fe806fde,
  0x0709b07098070970709607095070940708607085070810707e07076070750706e0706c07065070640705e0705d07055070540704e0704b0704a07049,
  0x0710f0710c0710b0710707106071050710407103070fa070e4070dc070d8070d6070d5070d4070d3070d1070ca070b7070b4070b1070b0070ab070a4,
  0x071800717907168071600715e0715c0715a0715707152071500714b0714a071470714607145071410713807131071300712f0712d0712b071200711e,
  0x071dc071da071d9071d6071d3071cc071cb071c4071c1071c0071bf071ba071b3071b2071b0071af071a2071a00719b0719a071920718c0718707185,
  0x072500724f0724e072450724307242072410723907238072340722f0722b072240721f0721d0721a072170721307209072080720707200071fe071f8,
  0x0729b072930728e0728d07289072840727f0727c0727b0727807277072710726f0726e0726b0726807263072600725e0725c0725a072560725507253,
  0x07307073050730407302072fe072fb072fa072f4072f3072e5072df072d8072d6072d5072cc072c9072c7072c1072be072b4072b1072ae072ad072a8,
  0x073580735607352073500734d073430733d0733b0733a0733507332073310732c073280732707324073220731e073190731807313073120730d0730b,
  0x0739507393073900738e07386073850738307381073800737c0737907377073710736f0736e0736c0736b073690736707366073600735f0735e0735d,
  0x073cf073cc073cb073c9073c6073c5073bf073bd073bc073b9073b7073b5073ad073ab073aa073a6073a5073a2073a00739f0739e0739c0739807397,
  0x074110740a07407074040740107400073ff073fd073fb073fa073f9073f7073f5073f4073e9073e7073e6073e3073e1073dd073d9073d6073d3073d2,
  0x07452074510744d0744b07447074460744407443074400743907431074300742f0742e0742d0742c0742b0742a074290742807426074240741b0741a,
  0x0749a07499074980749207491074900748f07489074870748607485074810748007472074710746e0746d0746b074680746707466074620745d07457,
  0x074d8074d3074d0074cc074c9074c8074bf074bb074b9074b5074b2074b1074af074ae074ab074aa074a9074a8074a6074a3074a1074a00749f0749c,
  0x0752a075290752707524075210752007517075160751207506074ff074fc074fb074fa074f4074ef074eb074ea074e8074e4074df074de074db074da,
  0x0757d0757c0757b0757a07579075710756f075610755f0755e0755707552075500754e075480754707543075400753f0753e0753d07539075360752f,
  0x075df075dc075d7075cf075ce075cc075c6075c4075c1075c0075bf075ba075b4075a4075a20759c075990759507593075920759007585075810757e,
  0x0761b07619076160761507613076120760f0760c0760a076080760707604076030760207600075f9075f1075ef075ee075ec075e7075e4075e1075e0,
  0x076550764b0764a0764907645076440764307641076400763c0763a07639076380763507633076320762d076290762607625076230761e0761d0761c,
  0x076a6076a5076a4076a3076a2076a00769f0769d0769c0769b076950768d0768c076850768107674076710766f0766e0766d07665076640765f07659,
  0x0770607700076fc076f9076f6076f1076f0076ec076e8076e6076e0076d9076d4076ce076cc076cb076c9076c5076c1076bd076ad076aa076a8076a7,
  0x0774a0774607745077420773e0773d077390773607735077340772f0772e0772d07728077220771c0771a07719077170771507714077120770e0770a,
  0x0778c07784077800777d0777a077740777307772077700776c0776a077670776407762077600775f0775e0775c0775707756077520774f0774e0774d,
  0x077e4077e0077df077de077d9077d5077d2077d1077c9077c3077be077b5077b1077af077ae077aa077a7077a20779f0779a0779607795077940778d,
  0x078430783707835078300782e0782d0782307822078210781d078110780e0780d078090780607805077fb077f8077f4077f1077f0077ec077ea077e6,
  0x0789f0789e0789d07898078940788f0788a0787e0787a0786e0786a07868078640786307861078600785e0785c078520784e0784c078480784707844,
  0x078e0078df078db078d6078d5078d3078d2078ce078cc078c9078c8078c7078bf078bd078bb078b3078b2078b1078b0078ad078ac078a8078a4078a1,
  0x0792d079290792707925079200791f0791e0791c0791a079100790c0790607900078ff078fb078fa078f7078f6078f3078f2078ea078e6078e4078e1,
  0x0797c0797b07979079720796b07969079670795c0795b0795807954079510794f0794b0794a0794607945079440793f0793d0793b079350793407931,
  0x079c8079c7079c4079c2079bb079b8079b4079b1079af079ab079a9079a8079a10799c0799b0799807996079950799407993079910798c0798b0797e,
  0x07a1507a1107a0c07a0a07a0907a0707a0307a02079fc079f8079f1079ed079eb079ea079e5079e2079e0079de079dd079da079d6079d4079cf079ca,
  0x07a5f07a5d07a5c07a5907a5607a5507a4c07a4807a4707a4507a4407a3a07a3907a3807a3507a3407a3007a2f07a2d07a2b07a2707a2107a1e07a1b,
  0x07ab907ab507ab307aac07aa307aa007a9e07a9407a9107a9007a8b07a8a07a8607a8507a8207a8007a7e07a7807a7507a6d07a6a07a6707a6507a60,
  0x07b2a07b2907b2707b2307b1f07b1407b0707afe07afd07afb07af407af107aec07aeb07ae907ae807adb07ad107ace07acc07ac907ac607abc07abb,
  0x07b7707b7307b7207b6f07b6d07b6a07b6907b6607b6407b6007b5507b4e07b4707b4107b4007b3f07b3d07b3407b3107b3007b2f07b2e07b2d07b2b,
  0x07bca07bc807bc507bc207bbd07bbc07bbb07bba07bb607bb507bb207bb007baf07bac07ba507ba007b9e07b9b07b9607b9107b9007b8e07b8907b84,
  0x07c0c07c0b07c0907c0607c0407c0307c0207c0107bfe07bfc07bfa07bf907bf807bf507bf407bf207bea07be807bdb07bda07bd907bd707bd607bd4,
  0x07c5b07c5a07c5907c5507c5307c5207c5107c4a07c4607c3a07c3907c3607c3407c3307c3107c2c07c2807c2607c2507c2007c1b07c1907c0f07c0e,
  0x07cb707cb607cb007ca607ca007c9e07c9407c8f07c8707c8607c7d07c7c07c7907c7207c7007c6e07c6d07c6907c6707c6307c6107c5e07c5d07c5c,
  0x07d0807d0707d0307cf507ceb07ce907ce607cdd07cda07cd907cd707cd507cd407cd307ccf07ccd07cc907cc807cc707cc407cbf07cbc07cbb07cba,
  0x07d5707d5307d5107d4d07d4807d4707d4107d4007d3e07d3d07d3c07d3107d2d07d2a07d2607d2307d1e07d1d07d1607d1307d1207d1107d0f07d09,
  0x07d9707d9607d9107d8d07d8c07d8b07d8807d8607d8507d8307d8207d8107d7f07d7b07d7a07d7807d7007d6a07d6707d6507d5d07d5c07d5a07d59,
  0x07deb07dea07de607de507de207dd907dd707dce07dcd07dcc07dc607dc507dc407dc307dc207db907db707db607db307daa07da707da607d9e07d9d,
  0x07e4407e3f07e3607e3307e2f07e2d07e2c07e2807e2707e2007e1d07e1c07e1707e1507e1107e1007e0807e0007dfa07df907df607df507df107ded,
  0x07e9807e9507e9107e8d07e8a07e8707e8607e8107e7e07e7807e7307e6f07e6e07e6b07e6507e6207e6107e5f07e5807e5207e5007e4e07e4707e45,
  0x07f7107f6d07f6607f6507f6407f6307f6107f5d07f5c07f5b07f5307f5207f4f07f4707f4407f4307f3f07f3e07f3d07f3c07f3b07e9e07e9d07e9a,
  0x07fce07fc807fc307fc007fbf07fbc07fb407fad07faa07fa607fa207fa107f9c07f9707f9607f9107f9007f8f07f8d07f8b07f8007f7f07f7e07f7d,
  0x080160801408013080110800f0800e0800d0800a080080800707fff07ffe07ffd07ffa07ff207fef07fee07fec07fe807fe507fe307fdf07fdb07fcf,
  0x08075080710806d08066080640806008044080400803e0803c0803a08039080370803508034080300802e0802c0802608024080200801f0801e0801d,
  0x080f3080f2080f0080ee080ed080e0080d8080d7080d5080d4080d2080cf080cd080c8080b9080b8080ab080a7080a60809e0809c0808e0808808081,
  0x081520814c0814a08147081450813c0813a08135081300812c0812708124081200811e0811c0811808117081160810b08103080fe080fa080f9080f6,
  0x081b4081b2081ae081a20819e0819b0819808196081900818e0818b08186081850818408181081770816f0816d081690816808167081610816008157,
  0x081fd081f9081f8081f6081f5081f2081f1081f0081ec081eb081e4081e1081de081dd081db081d7081d5081cf081ce081cb081ca081c5081c3081bb,
  0x08256082510824f0824e0824b082460824508244082430823a08234082320822808222082210821d0821a0821908214082130820f0820308200081ff,
  0x082a00829b0829a082980829608294082910828e0828a0828908287082840828308281082800827f0827d0827b082740826d0826708263082600825c,
  0x082e8082e4082e2082e0082da082d5082d0082c6082bf082be082bc082ba082b7082b4082b2082b0082ae082aa082a9082a8082a7082a4082a3082a1,
  0x08333083300832e0832d0832c08322083210831f0831e0831d0831b0830b0830a08308083070830108300082fe082fd082f7082f6082ef082ed082ea,
  0x083860838408382083800837f0837d08378083700835708356083550835408353083510834e0834d083470834408343083420833d0833c0833a08337,
  0x083dd083d4083d1083d0083cf083c9083c7083c0083bf083be083ad083ac083a9083a7083a60839d0839c0839b08399083980839508394083920838d,
  0x0845608452084510844f0844d0844a084480844708445084390842f0841908415084110840f0840a0840608401083fc083f9083f8083f6083ea083e8,
  0x084a8084a60849e08495084930849208485084810847d0847c08478084760847408473084700846a084670846508464084600845c0845a0845908458,
  0x084fa084f7084f2084f1084f0084ef084ea084e7084dc084d3084cf084cc084c8084c7084c2084c0084be084bd084ba084b4084b1084af084aa084a9,
  0x085460853f085360853408533085320852f0852b0852a08527085250852408523085220851e0851c085100850e0850c085070850308502084fd084fb,
  0x08585085810857f0857d0857b0857a085790856f0856b085640856208561085600855f0855e0855d0855c0855908556085530855208551085500854f,
  0x085c7085c2085bf085be085bd085bc085b8085b7085b6085b4085ad085a7085a5085a2085a00859f0859d08598085930858f0858c0858b0858908586,
  0x08619086180861208611086100860e0860d086050860408600085ff085fc085f6085f3085ed085e8085e6085e0085df085da085d8085ce085cb085ca,
  0x0866208661086600865d086590865808657086560865308652086460864208641086400863d0863c0863a08638086360862908627086210861e0861b,
  0x086b4086b3086b1086ad086a8086a7086a6086a10869c0869a0869808696086910868d086880867a0867708676086750866f0866c086690866408663,
  0x0870508704086fd086fc086fa086e7086e5086e3086e0086dc086da086d7086d5086d2086d1086c5086c3086c1086c0086bf086b9086b8086b7086b5,
  0x08743087400873e0873d0873c0873a0873908732087310872f0872e0872808723087210871f0871e087190871408713087100870f0870e0870b08707,
  0x087970879508793087900878c0878b087890878808787087860878508784087830877b08772087710876f0876508764087610875d087580874d08745,
  0x087df087dc087da087d9087d6087d5087ce087ca087c9087c8087c1087bf087be087b5087b1087ae087ad087ac087a7087a3087a00879e0879908798,
  0x0881a0881908818088140881308812088100880b0880a08809088060880308801087ff087fa087f8087f3087f1087ed087eb087ea087e4087e3087e2,
  0x088580885608855088510884e0884b0884a08849088480884508843088410883c0883a0883508832088300882e0882d088280881f0881e0881c0881b,
  0x088cb088ca088c0088be088bd088ba088aa088a8088a00889f0889c0889b0889a08898088800887b08879088710886908864088600885f0885c0885a,
  0x0891a089190891808916089150890f0890e0890d0890608901088f7088f5088f1088f0088ef088e7088de088db088d3088d2088d1088ce088cd088cc,
  0x089610895c0895b0895a08957089520894f08949089460894508942089400893e0893a0893908935089320893108930089280892708926089200891c,
  0x089b5089b4089b0089a5089a00899f0899c0899b0899508994089900898d089890897d0897c0897b0897a0897508973089700896e0896b0896308962,
  0x08a1208a1108a0f08a0708a0508a04089ff089fd089f9089f6089f3089f1089ed089eb089e9089e5089d8089d7089d6089d5089d4089bc089b7089b6,
  0x08a5708a5608a5308a4e08a4d08a4908a4708a4508a4308a4008a3e08a3d08a3708a3508a2f08a2c08a2b08a2608a2408a2208a2008a1e08a1508a14,
  0x08a9908a9708a9608a9208a9008a8f08a8b08a8608a8308a8008a7f08a7e08a7b08a7a08a7908a7708a7608a7508a6708a6508a6108a5d08a5c08a58,
  0x08af008aec08adf08add08ad708ad508ad408ad308ad108aca08ac908ac808ac608ac308abe08abb08ab708ab608ab308aaf08aae08aa908aa708a9f,
  0x08b4d08b4808b4608b4508b4408b4308b4208b3c08b3708b3008b2d08b1f08b1e08b1c08b1108b0b08b0a08b0608b0508aff08afc08af608af508af4,
  0x08c3808b9f08b9e08b9c08b9508b9408b8f08b8d08b8b08b8508b8408b8108b7e08b7c08b7908b7808b7608b6d08b6308b5e08b5908b5408b5308b52,
  0x08c7508c7308c6d08c6908c6808c6608c6408c6308c5d08c5b08c5908c5808c5708c5408c5308c5108c4f08c4b08c4908c4708c4508c3e08c3d08c39,
  0x08cdd08cd908cd608cd508ccf08ccb08cc908cc608cc508cba08cb908ca408c9c08c9b08c9908c9308c9208c9008c8b08c8708c8608c7e08c7b08c76,
  0x08d8408d8208d7f08d6e08d6c08d6908d6508d1b08d1708d1208d0908d0308d0108cff08cfe08cf808cf708cf508cf208cf008cef08cec08ce808ce1,
  0x08dca08dc808dc708dc608dc508dc008dbc08dbb08db908db708db508db208daf08dac08dab08da608da008d9f08d9e08d9508d9108d9008d8d08d88,
  0x08e2008e1608e1408e1108e0b08e0608e0508e0408e0108dfd08df408df208df108df008dec08de708de508de408dd908dd708dd508dd408dd108dce,
  0x08e6108e5e08e5d08e5c08e5b08e5408e4f08e4e08e4d08e4b08e4108e4008e3d08e3908e3808e3708e3608e3308e3108e2708e2608e2308e2208e21,
  0x08ead08ea908ea708ea208e9e08e9d08e9b08e9a08e9508e9208e9008e8908e8308e8208e7b08e7a08e7908e7108e7008e6f08e6d08e6c08e6908e62,
  0x08f0208f0008efa08ef908ef708ef108ef008eee08eed08ee808edc08ed408ed108ecf08ec708ec408ec308ec108ec008ebb08eba08eb508eb308eae,
  0x08f4108f4008f3a08f3708f3608f3508f3408f2e08f2d08f2c08f2808f2708f2508f2308f2108f2008f1e08f1808f1708f1608f1008f0f08f0808f07,
  0x08fc108fc008fbe08fb808fb608fb508fa608fa508fa408fa108fa008f9d08f6508f5e08f5d08f5808f5508f5408f5308f5208f5108f4f08f4708f43,
  0x0901b090180900c09008090040900208ffe08ffb08ff608ff508ff108fee08fe808fe408fe308fe008fd508fd308fd208fd008fcd08fcb08fca08fc6,
  0x09088090850907909074090700906c0906709066090620905d0905b0904c09044090430903f0903709034090330902f0902d0902c0902a0902909028,
  0x090c7090c5090c4090c3090be090bd090b6090b4090b3090b2090b0090a5090a2090a1090a00909b09099090980909709095090900908e0908c0908b,
  0x0910d0910809106091050910409100090ff090fe090f6090f4090f0090ef090eb090e5090df090dd090dc090d9090d8090d7090d5090d2090cc090c8,
  0x0913d0913c0913a09139091370913609134091310912f0912e0912909127091250912309122091200911e0911c0911a0911809117091160911409110,
  0x091910918e0918a091860918509183091810917b0917a09179091740916d0916709164091610915b0915a0915909157091530914f091480914709143,
  0x091d3091c5091c3091c2091bf091bd091bc091bb091b6091b3091b2091b1091b0091ae091ad091ac091a8091a6091a10919e09198091950919409193,
  0x0920609205092040920109200091fd091fb091f9091f7091f1091f0091ef091ee091ed091ec091ea091e9091e5091e4091de091da091d9091d7091d4,
  0x0923909238092360923509233092300922f0922e09228092260922509224092230921d0921c09218092160921309212092100920c0920a0920909207,
  0x0926e0926909268092670926509261092600925d0925c0925909258092510924f0924e0924d0924a09247092460924309242092400923e0923c0923a,
  0x092a7092a5092a4092a00929f0929909297092920928e0928d0928a09289092880927f0927d0927c0927b0927909278092770927609275092700926f,
  0x092d0092ce092cd092cc092cb092c8092c7092c6092c5092c3092c2092c1092c0092bf092bd092bc092bb092ba092b8092b6092b2092af092ab092a8,
  0x0930d093080930209300092ff092fb092f9092f0092ee092ec092e8092e7092e5092e3092e1092e0092df092dd092dc092d9092d8092d7092d5092d3,
  0x09355093520935109350093490934809347093370933609334093330932a09329093270932509324093210931f0931e0931d0931c093150931409311,
  0x0938a093880938209381093800937f0937d0937a09376093740937309371093700936f0936d0936a093690936709365093640935e0935a0935809357,
  0x093c7093c6093c5093c4093c1093ba093b6093b5093b4093ab093a9093a8093a6093a4093a3093a10939e0939b0939809395093920938f0938d0938b,
  0x0940909408094040940209401093fd093fb093fa093f9093f8093f7093e7093e6093e2093df093de093dc093d9093d3093cd093cc093cb093ca093c9,
  0x0945c09459094550944c0944a0944809445094430943f0943d0943b094340943309432094310942f0942e0941f0941709416094150940f0940e0940d,
  0x095a10959f0959e0959d0958e0958d0958c09588095840957e0957909578094840948309472094710946f0946e0946d0946b0946809463094610945f,
  0x095e4095e0095df095de095dd095da095d9095d3095d2095d1095d0095cb095c9095c8095c6095bf095bd095ba095b6095b4095ac095ab095a9095a6,
  0x0966e096610965809657096560965409652096410963d0963c0963a09639096380963709633096310962c096260962509624096220961e0961d095e6,
  0x096ca096ba096b3096af096ae096a9096a6096a5096a40969f0969d0969a096960969109689096840968309682096810967f0967e0967c0967b09674,
  0x097410973309731097280972309722097210971d0971b0971a09709097050970309702096fa096f1096ef096e9096df096de096dd096da096d8096d2,
  0x097960979509789097800977f0977d0977b097780977709776097730976e0976a09767097630975b0975a0975809757097550974f0974e0974a09743,
  0x097ca097c9097c7097c5097c4097c1097bf097be097bc097ba097b9097b8097b6097b5097b2097b1097ae097ac097a20979f0979e0979a0979909797,
  0x0980d0980a09807097fa097f8097f7097f4097f1097ef097e4097e1097e0097de097dd097db097d9097d8097d7097d4097d1097d0097ce097cd097cc,
  0x0985309852098510984a09847098440983e098350983309832098300982f0982e0982b098260982509823098200981e0981c0981909816098140980e,
  0x098cc098c8098c5098c2098bf098bb098ba098b8098b7098b4098b0098ae098ad098ab0986c0986a098660986509863098620985a098590985709856,
  0x099310992b0992709926099220991f0991c0991b0991a09917099160991509911099080990709902098f6098f3098ea098e7098e6098e5098e3098e1,
  0x0999b099600995f0995e0995c0995b0995909958099540994e0994d09948099470994609941099400993c0993b0993a0993909935099340993309932,
  0x099f0099ec099eb099ea099e7099de099dc099da099d9099d4099d3099c9099c3099bf099bd099ba099b9099b5099b2099b1099b0099a60999f0999d,
  0x09a3609a3509a3309a2e09a2d09a2709a2409a2309a2209a2009a1e09a1609a1109a1009a0c09a0b09a0409a0309a02099fe099fd099f9099f5099f4,
  0x09abf09abe09abb09ab909ab609ab509ab409ab209aaf09aae09aac09aaa09a5d09a5609a5409a5109a4e09a4c09a4b09a4a09a4709a4409a4109a38,
  0x09afd09afa09af909af509af309af209aec09ae909ae709ae509ae409ae009adc09adb09ad709ad609ad509ad209ad009ace09ac809ac609ac309ac1,
  0x09b3309b2d09b2b09b2609b2009b1c09b1b09b1909b1609b1209b1009b0e09b0d09b0c09b0b09b0909b0809b0509b0409b0309b0209b0109b0009aff,
  0x09b6e09b6d09b6c09b6b09b6a09b6809b6609b6509b6309b6109b5e09b5b09b5709b5609b5509b4c09b4b09b4809b3d09b3a09b3909b3709b3509b34,
  0x09ba909ba709ba609b9e09b9d09b9a09b9409b9009b8f09b8d09b8b09b8a09b8909b8709b8609b8509b8409b8009b7f09b7909b7809b7709b7509b73,
  0x09bef09beb09bea09be709be509bdf09bdd09bd809bd709bd009bce09bc809bc709bc109bbf09bbe09bbc09bbb09bb809bb709bb209bb109bb009bac,
  0x09c2909c2809c2709c2609c2309c2209c1e09c1c09c1a09c1909c1809c1609c1109c0f09c0b09c0209c0009bff09bfd09bfa09bf909bf809bf709bf3,
  0x09c5f09c5e09c5d09c5c09c5b09c5809c5609c5409c5309c5009c4f09c4e09c4a09c4909c4509c4409c4309c4109c3d09c3709c3609c3509c3109c2a,
  0x09d2f09d1e09d1d09d1c09d1809d1709d1109d0b09d0209cf909cf709cf209ce609c7b09c7709c7509c7209c7009c6e09c6b09c6a09c6909c6809c63,
  0x09d7709d7609d7009d6b09d6a09d6909d6509d6309d6209d5f09d5409d5309d4a09d4709d4509d4309d4209d3d09d3c09d3a09d3409d3309d3209d30,
  0x09dbf09dbc09db909db509db109dae09dac09daa09da109d9809d9709d9609d9509d9309d9209d8e09d8d09d8a09d8609d8409d8309d7e09d7c09d7b,
  0x09e0a09e0709e0209dfe09df409df309df009dee09deb09de909de709de509de009ddf09dde09dda09dd709dd609dd509dd409dca09dc909dc709dc3,
  0x09e9e09e9b09e9809e9609e8f09e8e09e8709e8509e8409e8309e8209e8009e7c09e7b09e7a09e1d09e1c09e1909e1609e1509e1209e1109e1009e0e,
  0x09ef809ef509ef209ef109ef009eee09eed09eec09ee709ee409edf09ed509ecb09ec809ec609eb509eb409eb309eb009eaf09eae09eac09ea809ea4,
  0x09f3709f3409f3209f3109f2f09f2b09f2a09f2609f2209f1f09f1b09f1a09f1909f1709f1609f1409f1209f1109f1009f0f09f0909f0309f0209eff,
  0x09f6f09f6e09f6d09f6909f6809f5e09f5d09f5a09f5809f5709f5609f5509f5309f4709f4609f4509f4409f4309f4109f3f09f3d09f3c09f3a09f39,
  0x0ff5e09fa509fa309fa209fa109f9e09f9709f9609f9409f9209f9109f9009f8f09f7d09f7a09f7509f7309f7109f70]

/-- `index_pointer_jis0212_0` (lib/whatwg/encoding/indexes_pointer.cpp:17), 6067 entries. -/
def ptr0Jis0212 : Table := ⟨20, 6067, ptr0Jis0212Data⟩

/-- Rows of `index_pointer_jis0212_1`. -/
def ptr1Jis0212Data : Nat := pack 480 [
  0x0381037e037f037d036e036f036c036d03600361035e035f035b02f00356035003570351034e034f008100a8006e007100ab00a900aa008000ad007f,
  0x03dc03dd03db031203cc03cd03ca03cb03be03bf03bc03bd03b9031003b403ae03b503af03ac03ad031d02ff039f03910392038f039002fb03800385,
  0x0364031102f103bb035d03b8035a03ba035c03b7035903b6035803b3035503b0035203b2035403fe031f03fd03ef03f003ed03ee031b03de03e303df,
  0x03d30375031502f50314037103d1037303d0037203d20374031302f303c9036b036903c8036a03c6036803c5036703c0036203c3036503c1036303c2,
  0x03e40386031c02fc03e1038303e20384031a02fa031903d9037b03da037c03d8037a031702f7031802f803d6037803d7037903d50377031603d40376,
  0x03f5039703f3039503f6039803f1039303f4039603f70399031e02fe03eb038d03ec038e03e9038b03ea038c03e8038a03e7038903e5038703e60388,
  0x006c006d03c403f9039b03fa039c03f8039a03fb039d03f2039403e0038203ce037003b10353040103a3040203a4040003a203a003ff03a103fc039e,
  0x0257025602550231022e022c022f022a022d02300229022802270226021f021a022b0221021e021c021902180217021600760075007000720073006f,
  0x0586058505840583058200ac00ae02910290028f028e028d028c028b028a0289028802870286028502610260025f025e025d025c025b025a02590258,
  0x05a405a305a205a105a0059f059e059d059c059b059a0599059805970596059505940593059205910590058f058e058d058c058b058a058905880587,
  0x05c305c205c105bf05be05bd05bc05bb05ba05b905b805b705b605b505b405b305b205b105b005af05ae05ad05ac05ab05aa05a905a805a705a605a5,
  0x05e005df05de05dd05dc05db05da05d905d805d705d605d505d405d305d205c005d105d005cf05ce05cd05cc05cb05ca05c905c805c705c605c505c4,
  0x05fe05fd05fc05fb05fa05f905f805f705f605f505f405f305f205f105f005ef05ee05ed05ec05eb05ea05e905e805e705e605e505e405e305e205e1,
  0x061c061b061a0619061806170616061506140613061206110610060f060e060d060c060b060a060906080607060606050604060306020601060005ff,
  0x063a063906380637063606340633063206310630062f062e062d062c062b062a0629062806270626062506240623062206210620061f061e0635061d,
  0x065806570656065506540653065206510650064f064e064d064c064b064a0649064806470646064506440643064206410640063f063e063d063c063b,
  0x0676067506740673067206710670066f066d066c066b066a0669066806670666066506640663066e066206610660065f065e065d065c065b065a0659,
  0x06940693069206910690068f068e068d068c068b068a0689068806870686068506840683068206810680067f067e067d067c067b067a067906780677,
  0x06b206b106b006af06ae06ad06ac06ab06aa06a906a806a706a606a506a406a306a206a106a0069f069e069d069c069b069a06990698069706960695,
  0x06d006cf06ce06cd06cc06cb06ca06c906c806c706c606c506c406c306c206c106c006bf06be06bd06bc06bb06ba06b906b806b706b606b506b406b3,
  0x06ee06ed06ec06eb06ea06e906e806e706e606e506e406e306e206e106e006df06de06dd06dc06db06da06d906d806d706d606d506d406d306d206d1,
  0x070c070b070a070907080707070607050704070307020701070006ff06fe06fd06fc06fb06fa06f906f806f706f606f506f406f306f206f106f006ef,
  0x072a0729072807270726072507240723072207210720071f071e071d071c071b071a0719071807170716071507140713071207100711070f070e070d,
  0x074807470746074507440743074207410740073f073e073d073c073b073a0739073807370736073507340733073207310730072f072e072d072c072b,
  0x0766076507640763076207610760075f075e075d075c075b075a0759075807570756075507540753075207510750074f074e074d074c074b074a0749,
  0x07840783078207810780077f077e077d077c077b077a0779077807770776077507740773077207710770076f076e076d076c076b076a076907680767,
  0x07a207a107a0079f079e079d079c079b079a0799079807970796079507940793079207910790078f078e078d078c078b078a07890788078707860785,
  0x07c007bf07be07bd07bc07bb07ba07b907b807b707b607b507b407b307b207b107b007af07ae07ad07ac07ab07aa07a907a807a707a607a507a407a3,
  0x07de07dd07dc07db07da07d907d807d707d607d507d407d307d207d107d007cf07ce07cd07cc07cb07ca07c907c807c707c607c507c407c307c207c1,
  0x07fc07fb07fa07f907f807f707f607f507f407f307f207f107f007ef07ee07ed07ec07eb07ea07e907e807e707e607e507e407e307e207e107e007df,
  0x081a0819081808170816081508140811081308120810080f080e080d080c080b080a080908080807080408030806080508020801080007ff07fe07fd,
  0x083808370836083508340833083208310830082f082e082d082c082b082a0829082808270826082508240823082208210820081f081e081d081c081b,
  0x085608550854085208510850084f084e084d084c084b0853084a0849084808470846084508440843084208410840083f083e083d083c083b083a0839,
  0x0874087308720870086f086e086d086c086b086a08690868086708660865086408630862086108710860085f085e085d085c085b085a085908580857,
  0x089208910890088f088e088d088c088b088a0889088808870886088508840883088208810880087f087e087d087c087b087a08790878087708760875,
  0x08b008af08ae08ad08ac08ab08aa08a908a808a708a608a508a408a308a008a208a1089f089e089d089c089b089a0899089808970896089508940893,
  0x08cf08ce08cd08cc08cb08ca08c908c808c708c608c508c408c308c208c108c008bf08be08bd08bc08bb08ba08b908b808b608b508b408b308b208b1,
  0x08ed08ec08eb08ea08e908e808e708e608e508e408e308e208e108e008df08de08dd08dc08db08da08d908d808d708d608d508d408d308d208d108d0,
  0x090b090a090909080907090609050904090309020901090008ff08fe08fd08fc08fb08fa08f908f808f708f608f508f408f308f208f108f008ef08ee,
  0x0929092809270926092509240923092209210920091f091e091d091c091b091a0919091809170916091509140913091209110910090f090e090d090c,
  0x09470946093f094509440943094209410940093e093d093c093b093a0939093809370936093509340933093209310930092f092e092d092c092b092a,
  0x096509640963096209610960095f095e095d095c095b095a0959095809570956095509540953095209510950094f094e094d094c094b094a09490948,
  0x0983098209810980097f097e097d097c097b097a0979097809770976097509740973097209710970096f096e096d096c096b096a0969096809670966,
  0x09a109a0099f099e099d099c099b099a0999099809970996099509940993099209910990098f098e098d098c098b098a098909880987098609850984,
  0x09c209be09bd09bc09bb09ba09b909b809b709b609b109b509b409b309b209b009af09ae09ad09ac09ab09aa09a909a709a809a609a509a409a309a2,
  0x09dd09dc09db09da09d909d809d709d609d509d409d309d209d109d009cf09ce09cd09cc09cb09ca09c909c809c709c609c509c409c309c109bf09c0,
  0x09fa09f909f809f609f709f509f409f309f209f109f009ef09ee09ed09ec09eb09ea09e909e809e709e609e409e509e309e209e109e009df09de19a9,
  0x0a180a170a160a150a140a130a120a110a100a0f0a0e0a0d0a0c0a0b0a0a0a090a080a070a060a050a040a030a020a010a0009ff09fe09fc09fb09fd,
  0x0a360a350a340a330a320a310a300a2f0a2e0a2d0a2c0a2b0a2a0a290a280a270a260a250a240a230a220a210a200a1f0a1e0a1d0a1c0a1a0a1b0a19,
  0x0a540a530a520a510a500a4f0a4e0a4d0a4c0a4b0a4a0a490a480a470a460a450a440a430a420a410a400a3f0a3e0a3d0a3c0a3b0a3a0a390a380a37,
  0x0a720a710a700a6f0a6e0a6d0a6c0a6b0a6a0a690a680a670a660a650a640a630a620a610a600a5f0a5e0a5d0a5c0a5b0a5a0a580a570a590a560a55,
  0x0a900a8f0a8e0a8d0a8c0a8b0a8a0a890a880a870a860a850a840a830a820a810a800a7f0a7e0a7d0a7c0a7b0a7a0a790a780a770a760a750a740a73,
  0x0aae0aad0aac0aab0aaa0aa90aa80aa70aa60aa50aa40aa30aa20aa10aa00a9f0a9e0a9d0a9c0a9b0a9a0a990a980a970a960a950a940a930a920a91,
  0x0acc0acb0aca0ac90ac80ac70ac60ac50ac40ac30ac20ac10ac00abf0abe0abd0abc0abb0aba0ab90ab80ab70ab60ab50ab40ab30ab20ab10ab00aaf,
  0x0aea0ae90ae80ae70ae60ae50ae40ae30ae20ae10ae00adf0ade0add0adc0adb0ada0ad90ad80ad70ad60ad50ad40ad30ad20ad10ad00acf0ace0acd,
  0x0b080b070b060b050b040b020b010b030b000aff0afe0afd0afc0afb0afa0af90af80af70af60af50af40af30af20af10af00aef0aee0aed0aec0aeb,
  0x0b260b250b240b230b220b210b200b1f0b1e0b1d0b1c0b1b0b1a0b190b180b170b160b150b140b130b120b110b100b0f0b0e0b0d0b0c0b0b0b0a0b09,
  0x0b440b430b420b410b400b3f0b3e0b3d0b3c0b3b0b3a0b390b380b370b360b350b340b330b320b310b300b2f0b2e0b2d0b2c0b2b0b2a0b290b280b27,
  0x0b620b610b600b5f0b5e0b5d0b5c0b5b0b5a0b590b580b570b560b550b540b530b520b510b500b4f0b4e0b4d0b4c0b4b0b4a0b490b480b470b460b45,
  0x0b800b7f0b7e0b7d0b7c0b7b0b7a0b790b780b770b760b750b740b730b720b710b700b6f0b6e0b6d0b6c0b6b0b6a0b690b680b670b660b650b640b63,
  0x0b9e0b9d0b9c0b9b0b9a0b990b980b970b960b950b940b930b920b910b900b8f0b8e0b8d0b8c0b8b0b8a0b890b880b870b860b850b840b830b820b81,
  0x0bbc0bbb0bba0bb90bb80bb70bb60bb50bb40bb30bb20bb10bb00baf0bae0bad0bac0bab0baa0ba90ba80ba70ba60ba50ba40ba30ba20ba10ba00b9f,
  0x0bda0bd90bd80bd70bd60bd50bd40bd30bd20bd10bd00bcf0bce0bcd0bcc0bcb0bca0bc90bc80bc70bc60bc50bc40bc30bc20bc10bc00bbf0bbe0bbd,
  0x0bf80bf70bf60bf50bf40bf30bf20bf10bf00bef0bee0bed0bec0beb0bea0be90be80be70be60be50be40be30be20be10be00bdf0bde0bdd0bdc0bdb,
  0x0c160c150c140c130c120c110c100c0f0c0e0c0d0c0c0c0b0c0a0c090c080c070c060c050c040c030c020c010c000bff0bfe0bfd0bfc0bfb0bfa0bf9,
  0x0c330c340c320c310c300c2f0c2e0c2c0c2d0c2b0c2a0c290c280c270c260c250c240c230c220c210c200c1f0c1e0c1d0c1c0c1b0c1a0c190c180c17,
  0x0c530c520c510c500c4f0c4e0c4d0c4c0c4b0c4a0c480c430c400c490c470c460c450c440c420c410c3f0c3e0c3d0c3b0c3a0c390c380c370c360c35,
  0x0c700c6f0c6e0c6d0c6c0c6b0c3c0c6a0c690c680c670c660c650c640c630c620c610c600c5f0c5e0c5d0c5c0c5b0c5a0c590c580c570c560c550c54,
  0x0c8e0c8d0c8c0c8b0c8a0c890c880c870c860c850c840c830c820c810c800c7f0c7e0c7d0c7c0c7b0c7a0c790c780c770c760c750c740c730c720c71,
  0x0cad0cac0cab0ca90caa0ca80ca70ca60ca50c930ca30ca20ca10ca00c9f0c9e0c9d0c9c0c9b0c9a0c990c980c970c960c950c940c920c910c900c8f,
  0x0cca0cc90cc80cc70cc60cc50cc40cc30cc20cc10cc00cbf0cbe0cbd0cbc0cbb0cba0cb90cb80cb70ca40cb60cb50cb40cb30cb20cb10cb00caf0cae,
  0x0ce80ce70ce60ce50ce40ce30ce20ce10ce00cdf0cde0cdd0cdc0cdb0cda0cd90cd80cd70cd60cd50cd40cd30cd20cd10cd00ccf0cce0ccd0ccc0ccb,
  0x0d060d050d040d030d020d010d000cff0cfe0cfd0cfc0cfb0cfa0cf90cf80cf70cf60cf50cf40cf30cf20cf10cf00cef0cee0ced0cec0ceb0cea0ce9,
  0x0d240d230d220d210d200d1f0d1e0d1d0d1c0d1b0d1a0d190d180d170d160d150d140d130d120d110d100d0f0d0e0d0d0d0c0d0b0d0a0d090d080d07,
  0x0d420d410d400d3f0d3e0d3d0d3c0d3b0d3a0d390d380d370d360d350d340d330d320d310d300d2f0d2e0d2d0d2c0d2b0d2a0d290d280d270d260d25,
  0x0d600d5f0d5e0d5d0d5c0d5b0d5a0d590d580d570d560d550d540d530d520d510d500d4f0d4e0d4d0d4c0d4b0d4a0d490d480d470d460d450d440d43,
  0x0d7e0d7d0d7c0d7b0d7a0d790d780d770d760d750d740d730d720d710d700d6f0d6e0d6d0d6c0d6b0d6a0d690d680d670d660d650d630d640d620d61,
  0x0d9c0d9b0d9a0d990d980d970d960d950d940d930d920d910d900d8f0d8e0d8d0d8c0d8b0d8a0d890d880d870d860d850d840d830d820d810d800d7f,
  0x0dba0db90db80db70db60db50db40db30db20db10db00daf0dae0dad0dac0dab0daa0da90da80da70da60da50da40da30da20da10da00d9f0d9e0d9d,
  0x0dd70dd60e090dd50dd40dd30dd20dd10dd00dcf0dce0dcd0dcc0dcb0dca0dc90dc80dc70dc60dc50dc40dc30dc20dc10dc00dbf0dbe0dbd0dbc0dbb,
  0x0df50df40df30df20df10df00def0dee0ded0dec0deb0dea0de90de80de70de60de50de40de30de20de10de00ddf0dde0ddd0ddc0ddb0dda0dd90dd8,
  0x0e140e130e120e110e100e0f0e0e0e0d0e0c0e0b0e0a0e080e070e060e050e040e030e020e010e000dff0dfe0dfd0dfc0dfb0dfa0df90df80df70df6,
  0x0e320e310e300e2f0e2e0e2d0e2c0e2b0e2a0e290e280e270e260e250e240e230e220e210e200e1f0e1e0e1d0e1c0e1b0e1a0e190e180e170e160e15,
  0x0e500e4f0e4e0e4d0e4c0e4b0e4a0e490e480e470e460e450e440e430e420e410e400e3f0e3e0e3d0e3c0e3b0e3a0e390e380e370e360e350e340e33,
  0x0e6e0e6d0e6c0e6b0e6a0e690e680e670e660e650e640e630e620e610e600e5f0e5e0e5d0e5c0e5b0e5a0e590e580e570e560e550e540e530e520e51,
  0x0e8c0e8b0e8a0e890e880e870e860e850e830e820e810e800e7f0e7e0e840e7d0e7c0e7b0e7a0e790e780e770e760e750e740e730e720e710e700e6f,
  0x0eaa0ea90ea80ea70ea60ea50ea40ea30ea20ea10ea00e9f0e9e0e9d0e9c0e9b0e9a0e990e980e970e960e950e940e930e920e910e900e8f0e8e0e8d,
  0x0ec80ec70ec60ec50ec40ec30ec20ec10ec00ebf0ebe0ebd0ebc0ebb0eba0eb90eb80eb70eb60eb50eb40eb30eb20eb10eb00eaf0eae0ead0eac0eab,
  0x0ee60ee50ee40ee30ee20ee10ee00edf0ede0edd0edc0edb0eda0ed90ed80ed70ed60ed50ed40ed30ed20ed10ecf0ece0ecd0ecc0ed00ecb0eca0ec9,
  0x0f040f030f020f010f000eff0efe0efd0efc0efb0efa0ef90ef80ef70ef60ef50ef40ef30ef20ef10ef00eef0eee0eed0eec0eeb0eea0ee90ee80ee7,
  0x0f220f210f200f1f0f1e0f1d0f1c0f1b0f1a0f190f180f170f160f150f140f130f120f110f100f0f0f0e0f0d0f0c0f0b0f0a0f090f080f070f060f05,
  0x0f400f3f0f3e0f3d0f3c0f3b0f3a0f390f380f370f360f350f340f330f320f310f300f2f0f2e0f2d0f2c0f2b0f2a0f290f280f270f260f250f240f23,
  0x0f5e0f5d0f5c0f5b0f5a0f590f580f570f560f550f540f530f520f510f500f4f0f4e0f4d0f4c0f4b0f4a0f490f480f470f460f450f440f430f420f41,
  0x0f7c0f7b0f7a0f790f780f770f760f750f740f730f720f710f700f6f0f6e0f6d0f6c0f6b0f6a0f690f680f670f660f650f640f630f620f610f600f5f,
  0x0f9a0f990f980f970f960f950f940f930f920f910f900f8f0f8e0f8d0f8c0f8b0f8a0f890f880f870f860f850f840f830f820f810f800f7f0f7e0f7d,
  0x0fb80fb70fb60fb50fb40fb30fb20fb10fb00faf0fae0fad0fac0fab0faa0fa90fa80fa70fa60fa50fa40fa30fa20fa10fa00f9f0f9e0f9d0f9c0f9b,
  0x0fd60fd50fd40fd30fd20fd10fd00fcf0fce0fcd0fcc0fcb0fca0fc90fc80fc70fc60fc50fc40fc30fc20fc10fc00fbf0fbe0fbd0fbc0fbb0fba0fb9,
  0x0ff40ff30ff20ff10ff00fef0fee0fed0fec0feb0fea0fe90fe80fe70fe60fe50fe40fe30fe20fe10fe00fdf0fde0fdd0fdc0fdb0fda0fd90fd80fd7,
  0x101210111010100f100e100d100c100b100a10091008100710061005100410031002100110000fff0ffe0ffd0ffc0ffb0ffa0ff90ff80ff70ff60ff5,
  0x1030102f102e102d102c102b102a1029102810271026102510241023102210211020101f101e101d101c101b101a1019101810171016101510141013,
  0x104e104d104c104b104a1049104810471046104510441043104210411040103f103e103d103c103b103a103910381037103610351034103310321031,
  0x106c106b106a1069106810671066106510641063106210611060105f105e105d105c105b105a1059105810571056105510541053105210511050104f,
  0x108b108a108910871086108510841083108210811080107f107e107d107c107b107a1079107810771076107510741073107210711070106f106e106d,
  0x10a810a710a610a510a410a310a210a110a0109f109e109d109c109b109a1099109810971096109510941093109210911090108f1088108e108d108c,
  0x10c610c510c410c310c210c110c010bf10be10bd10bc10bb10ba10b910b810b710b610b510b410b310b210b110b010af10ae10ad10ac10ab10aa10a9,
  0x10e410e310e210e110e010df10de10dd10dc10db10da10d910d810d710d610d510d410d310d210d110d010cf10ce10cd10cc10cb10ca10c910c810c7,
  0x11021101110010ff10fe10fd10fc10fb10fa10f910f810f710f610f510f410f310f210f110f010ef10ee10ed10ec10eb10ea10e910e810e710e610e5,
  0x1120111f111e111d111c111b111a1119111811171116111511141113111211111110110f110e110d110c110b110a1109110811071106110511041103,
  0x113e113d113c113b113a1136113911381137113511341133113211311130112f112e112d112c112b112a112911281127112611251124112311221121,
  0x1157115c115b115a115911581156115511541153114e115211511150114f114d114c114b114a1149114811471146114511441143114211411140113f,
  0x117a1179117811771176117511741173117211711170116f116e116d116c116b116a1169116811671166116511641163116211611160115f115e115d,
  0x119811971196119511941193119211911190118f118e118d118c118b118a1189118811871186118511841183118211811180117f117e117d117c117b,
  0x11b611b511b411b311b211b111b011af11ae11ad11ac11ab11aa11a911a811a711a611a511a411a311a211a111a0119f119e119d119c119b119a1199,
  0x11d411d311d211d111d011cf11ce11cd11cc11cb11ca11c911c811c711c611c511c411c311c211c111c011bf11be11bd11bc11bb11ba11b911b811b7,
  0x11f211f111f011ef11ee11ed11ec11eb11ea11e911e811e711e611e511e411e311e211e111e011df11de11dd11dc11db11da11d911d811d711d611d5,
  0x1210120f120e120d120c120b120a120912081207120612051204120312021201120011ff11fe11fd11fc11fb11fa11f911f811f711f611f511f411f3,
  0x122e122d122c122b122a1229122812271226122512241223122212211220121f121e121d121c121b121a121912181217121612151214121312121211,
  0x124c124b124a1249124812471246124512441243124212411240123f123e123d123c123b123a1239123812371236123512341233123212311230122f,
  0x126a1269126812671266126512641263126212611260125f125e125d125c125b125a1259125812571256125212551254125312511250124f124e124d,
  0x128812871286128512841283128212811280127f127e127d127c127b127a1279127812771276127512741273127212711270126f126e126d126c126b,
  0x12a612a512a412a312a212a112a0129f129e129d129c129b129a1299129812971296129512941293129212911290128f128e128d128c128b128a1289,
  0x12c412c312c212c112c012bf12be12bd12bc12bb12ba12b912b812b712b612b512b412b312b212b112b012af12ae12ad12ac12ab12aa12a912a812a7,
  0x12e212e112e012df12de12dd12dc12db12da12d912d812cc12d712d612d512d412d312d212d112d012cf12ce12cd12cb12ca12c912c812c712c612c5,
  0x130012ff12fe12fd12fc12fb12fa12f912f812f712f612f512f412f312f212f112f012ef12ee12ed12ec12eb12ea12e912e812e712e612e512e412e3,
  0x131e131d131c131b131a1319131813171316131513141313131213111310130f130e130d130c130b130a130913081307130613041305130313021301,
  0x133c133b133a1339133813371336133513341333133213311330132f132e132d132c132b132a1329132813271326132513241323132213211320131f,
  0x135a1359135813571356135513541353135213511350134f134e134d134c134b134a1349134813471346134513441343134213411340133f133e133d,
  0x137813771376137513741373137213711370136f136e136d136c136b136a1369136813671366136513641363136213611360135f135e135d135c135b,
  0x1396139513941393139213911390138f138e138d138c138b138a1389138813871386138513841383138213811380137f137e137d137c137b137a1379,
  0x13b413b313b213b113b013af13ae13aa13ad13ac13ab13a913a813a713a613a513a413a313a213a1139b13a0139f139e139d139c139a139913981397,
  0x13d213d113d013cf13ce13cd13cc13cb13ca13c913c813c713c613c513c413c313c213c113c013bf13be13bd13bc13bb13ba13b913b813b713b613b5,
  0x13f013ef13ee13ed13ec13eb13ea13e913e813e713e613e513e413e313e213e113e013df13de13dd13dc13db13da13d913d813d713d613d513d413d3,
  0x140e140d140c140b140a140914081407140614051404140314021401140013ff13fe13fd13fc13fb13fa13f913f813f713f613f513f413f313f213f1,
  0x144f142c142b142a1429142814271426142514241423142214211420141f141e141d141c141b141a141914181417141514141413141214111410140f,
  0x1448144714461445145d14441443144214411440143f143e143d143c143b143a1439143814371436143514341433143214311430142f142e142d1416,
  0x146814671466146514641463146214611460145f145e145c145b145a1459145814571456145514541453145214511450144e144d144c144b144a1449,
  0x1486148514841483148214811480147f147e147d147c147b147a1479147814771476147514741473147214711470146f146e146d146c146b146a1469,
  0x14a514a414a314a214a114a0149f149e149d149c149b149a149914971496149514941493149214911490148f148e148d148c148b148a148914881487,
  0x14c214c114c014bf14be14bd14bc14bb14ba14b914b814b714b614b514b414b314b214b114b014af14ae14ad14ac149814ab14aa14a914a814a714a6,
  0x14df14de14dd14dc14db14da14d914d814d714d614e314d514d414d314d214d114d014cf14ce14cd14cc14cb14ca14c914c814c714c614c514c414c3,
  0x14fe14fd14fc14fb14fa14f914f814f714f614f514f414f314f214f114f014ef14ee14ed14ec14eb14ea14e914e814e714e614e514e414e214e114e0,
  0x151a1519153a151815171516151515141513151215111510150f150e150d150c150b150a15091508150715061505150408b7150315021501150014ff,
  0x153815371536153515341533153215311530152f152e152d152c152b152a1529152815271526152515241523152215211520151f151e151d151c151b,
  0x15571556155515541553155215511550154f154e154d154c154b154a1549154815471546154515441543154215411540153f153e153d153c153b1539,
  0x157515741573157215711570156f156e156d156c156b156a1569156815671566156515641563156215611560155f155e155d155c155b155a15591558,
  0x1593159215911590158f158e158d158c158b158a1589158815871586158515841583158215811580157f157e157d157c157b157a1579157815771576,
  0x15b115b015af15ae15ad15ac15ab15aa15a915a815a715a615a515a415a315a215a115a0159f159a159e159d159c159b159915981597159615951594,
  0x15cf15ce15cd15cc15cb15ca15c915c815c715c615c515c415c315c215c115c015bf15be15bd15bc15bb15ba15b915b815b715b615b515b415b315b2,
  0x15ed15ec15eb15ea15e915e815e715e615e515e415e315e215e115e015df15de15dd15dc15db15da15d915d815d715d615d515d415d315d215d115d0,
  0x160b160a160916081607160616051604160316021601160015ff15fe15fd15fc15fb15fa15f915f815f715f615f515f415f315f215f115f015ef15ee,
  0x1629162816271626162516241623162216211620161f161e161d161c161b161a1619161816171616161516141613161216111610160f160e160d160c,
  0x16471646164516441643164216411640163f163e163d163c163b163a1639163816371636163516341633163216311630162f162e162d162c162b162a,
  0x166516641663166216611660165f165e165d165c165b165a1659165816571656165516541653165216511650164f164e164d164c164b164a16491648,
  0x168216811680167f1684167e167d167c167b167a1679167816771676167516741673167216711670166f166e166d166c166b166a1669166816671666,
  0x16a116a0169f169e169d169c169b169a169916981697169616951694169216911690168f1693168e168d168c168b168a168916881687168616851683,
  0x16bf16be16bd16bc16bb16ba16b916b816b616b516b716b416b316b216b116b016af16ae16ad16ac16ab16aa16a916a816a716a616a516a416a316a2,
  0x16dd16dc16db16da16d916d816d716d616d416d516d316d216d116d016cf16ce16cd16cc16cb16ca16c916c816c716c616c516c416c316c216c116c0,
  0x16fb16fa16f916f816f716f616f516f416f316f216f116f016ef16ee16ed16ec16eb16ea16e916e816e716e616e516e416e316e216e116e016df16de,
  0x171917181717171617151714171317111710170f170e170d170c170b170a1709170817071706170517041703170217011712170016ff16fe16fd16fc,
  0x17371736173517341733173217311730172f172e172d172c172b172a1729172817271726172517241723172217211720171f171e171d171c171b171a,
  0x175517541753175217511750174f174e174d174c174b174a1749174817471746174517441743174217411740173f173e173d173c173b173a17391738,
  0x1773177217711770176f176e176d176c176b176a176917681767176617641763176217611760175f1765175e175d175c175b175a1759175817571756,
  0x17911790178f178e178d178c178b178a1789178817871786178517841783178217811780177f177e177d177c177b177a177917781777177617751774,
  0x17af17ae17ad17ac17ab17aa17a917a817a717a617a517a417a317a217a117a0179f179e179d179c179b179a17991798179717961795179417931792,
  0x17cd17cc17cb17ca17c917c817c717c617c517c417c317c217c117c017bf17be17bd17bc17bb17ba17b917b817b717b617b217b517b417b317b117b0,
  0x17ec17e917e817e717e617e517e417e317e217ea17db17e117e017df17de17dd17dc17da17d917d817d717d617d517d417d317d217d117d017cf17ce,
  0x180918081807180618051804180118031802180017ff17fe17fd17fc17fb17fa17f917f817f717f617f517f417f317f217f117f017eb17ef17ee17ed,
  0x18271826182518241823182218211820181f181e181d181c181b181a1819181818171816181518141813181218111810180f180e180d180c180b180a,
  0x184518441843184218411840183f183e183d183c183b183a1839183818371836183518341833183218311830182f182e182d182c182b182a18291828,
  0x1863186218611860185f185e185d185c185b185a1859185818571856185518541853185218511850184f184e184d184c184b184a1849184818471846,
  0x18811880187f187e187d187c187b187a1879187818771876187518741873187218711870186f186e186d186c186b186a186918681867186618651864,
  0x189f189e189d189c189b189a1899189818971896189518941893189218911890188f188e188d188c188b188a18891888188718861885188418831882,
  0x18bd18bc18bb18ba18b918b818b718b618b518b418b318b218b118b018af18ae18ad18ac18ab18aa18a918a818a718a618a518a418a318a218a118a0,
  0x18db18da18d918d818d718d618d518d418d318d218d118d018cf18ce18cd18cc18cb18ca18c918c818c718c618c518c418c318c218c118c018bf18be,
  0x18f918f818f718f618f518f418f318f218f118f018ef18ee18ed18ec18eb18ea18e918e818e718e618e518e418e318e218e118e018df18de18dd18dc,
  0x1917191619151914191319111910190f190e190d1912190c190b190a190919081907190619051904190319021901190018ff18fe18fd18fc18fb18fa,
  0x193519341933193219311930192f192e192d192c192b192a1929192819251927192619241923192219211920191f191e191d191c191b191a19191918,
  0x1952195319511950194f194e194d194c194b194a1949194819471946194519441943194219411940193e193f193d193c193b193a1939193819371936,
  0x19711970196f196e196d196c196b196a1969196819671966196519641963196219611960195f195e195d195c195b195a195919581957195619551954,
  0x198f198e198d198c198b198a1989198819871986198519841983198219811980197f197e197d197c197b197a19791978197719761975197419731972,
  0x19ae19ad19ac19ab19aa19a819a719a619a519a419a319a219a119a0199f199e199d199c199b199a1999199819971996199519941993199219911990,
  0x19cc19cb19ca19c919c819c719c619c519c419c319c219c119c019bf19be19bd19bc19bb19ba19b919b819b719b619b519b419b319b219b119b019af,
  0x19ea19e919e819e719e619e519e419e319e219e119e019df19de19dd19dc19db19da19d919d819d719d619d519d419d319d219d119d019cf19ce19cd,
  0x1a091a071a061a051a041a031a021a011a0019ff19fe19fc19fb19fa19fd19f919f819f719f619f519f419f319f219f119f019ef19ee19ed19ec19eb,
  0x1a261a251a241a231a221a211a201a1f1a1e1a1d1a1c1a1b1a1a1a181a171a161a151a141a131a121a111a191a101a0f1a0e1a0d1a081a0c1a0b1a0a,
  0x1a441a431a421a411a401a3f1a3e1a3d1a3c1a3b1a3a1a391a381a371a361a351a341a331a321a311a301a2f1a2e1a2d1a2c1a2b1a2a1a291a281a27,
  0x1a621a611a601a5f1a5e1a5d1a5c1a5b1a5a1a591a581a571a561a551a541a531a521a511a501a4f1a4e1a4d1a4c1a4b1a4a1a491a481a471a461a45,
  0x1a801a7f1a7e1a7d1a7c1a7b1a7a1a791a781a771a761a751a741a731a721a711a701a6f1a6e1a6d1a6c1a6b1a6a1a691a681a671a661a651a641a63,
  0x1a9e1a9d1a9a1a9c1a9b1a991a981a971a961a951a941a931a921a911a901a8f1a8e1a8d1a8c1a8b1a8a1a891a881a871a861a851a841a831a821a81,
  0x1abc1abb1aba1ab91ab81ab71ab61ab51ab41ab31ab21ab11ab01aaf1aae1aad1aac1aab1aaa1aa91aa81aa71aa61aa51aa41aa31aa21aa11aa01a9f,
  0x1ada1ad91ad81ad71ad61ad51ad41ad31ad21ad11ad01acf1ace1acd1acc1acb1aca1ac91ac81ac71ac61ac51ac41ac31ac21ac11ac01abf1abe1abd,
  0x1af81af71af61af51af41af31af21af11af01aef1aee1aed1aec1aeb1aea1ae91ae81ae71ae61ae51ae41ae31ae21ae11ae01adf1ade1add1adc1adb,
  0x1b161b151b141b131b121b111b101b0f1b0e1b0d1b0c1b0b1b0a1b091b081b071b061b051b041b031b021b011b001aff1afe1afd1afc1afb1afa1af9,
  0x1b341b331b321b311b301b2f1b2e1b2d1b2c1b2b1b2a1b291b281b271b261b251b241b231b221b211b201b1f1b1e1b1d1b1c1b1b1b1a1b191b181b17,
  0x1b521b511b501b4f1b4e1b4d1b4c1b4b1b4a1b491b481b471b461b451b441b431b421b411b401b3f1b3e1b3d1b3c1b3b1b3a1b391b381b371b361b35,
  0x1b701b6f1b6e1b6d1b6c1b6b1b6a1b681b691b671b661b651b641b631b621b611b601b5f1b5e1b5c1b5a1b591b5d1b581b571b561b551b5b1b541b53,
  0x1b8e1b8d1b8c1b8b1b8a1b891b881b871b861b851b841b831b821b801b811b7f1b7e1b7d1b7c1b7b1b771b7a1b791b781b761b751b741b731b721b71,
  0x1bac1bab1baa1ba91ba81ba71ba61ba51ba41ba31ba21ba11ba01b9f1b9e1b9d1b9c1b9b1b9a1b991b981b971b961b951b941b931b921b911b901b8f,
  0x1bca1bc91bc81bc71bc61bc51bc41bc31bc21bc11bc01bbf1bbe1bbd1bbc1bbb1bba1bb91bb61bb81bb71bb51bb41bb31bb21bb11bb01baf1bae1bad,
  0x1be81be71be61be51be41be31be21be11be01bdf1bde1bdd1bdc1bdb1bda1bd91bd81bd71bd61bd51bd41bd31bd21bd11bd01bcf1bce1bcd1bcc1bcb,
  0x1c061c051c041c031c021c011c001bff1bfe1bfd1bfc1bfb1bfa1bf91bf81bf71bf61bf51bf41bf31bf21bf11bf01bef1bee1bed1bec1beb1bea1be9,
  0x1c241c231c221c211c201c1f1c1e1c1d1c1c1c1b1c1a1c191c181c171c161c151c141c131c121c111c101c0f1c0e1c0d1c0c1c0b1c0a1c091c081c07,
  0x00741c2a1c291c281c271c261c25]

/-- `index_pointer_jis0212_1` (lib/whatwg/encoding/indexes_pointer.cpp:18), 6067 entries. -/
def ptr1Jis0212 : Table := ⟨16, 6067, ptr1Jis0212Data⟩

/-- Rows of `index_code_point_iso_2022_jp_katakana`. -/
def cpIso2022JpKatakanaData : Nat := pack 480 [
  0x030af030ad030ab030aa030a8030a6030a4030a2030fc030c3030e7030e5030e3030a9030a7030a5030a3030a1030f2030fb030010300d0300c03002,
  0x030df030de030db030d8030d5030d2030cf030ce030cd030cc030cb030ca030c8030c6030c4030c1030bf030bd030bb030b9030b7030b5030b3030b1,
  0x0309c0309b030f3030ef030ed030ec030eb030ea030e9030e8030e6030e4030e2030e1030e0]

/-- `index_code_point_iso_2022_jp_katakana` (lib/whatwg/encoding/indexes_code_point.cpp:11), 63 entries. -/
def cpIso2022JpKatakana : Table := ⟨20, 63, cpIso2022JpKatakanaData⟩

/-- Rows of `index_pointer_iso_2022_jp_katakana_0`. -/
def ptr0Iso2022JpKatakanaData : Nat := pack 480 [
  0x030b9030b7030b5030b3030b1030af030ad030ab030aa030a9030a8030a7030a6030a5030a4030a3030a2030a10309c0309b0300d0300c0300203001,
  0x030e3030e2030e1030e0030df030de030db030d8030d5030d2030cf030ce030cd030cc030cb030ca030c8030c6030c4030c3030c1030bf030bd030bb,
  0x030fc030fb030f3030f2030ef030ed030ec030eb030ea030e9030e8030e7030e6030e5030e4]

/-- `index_pointer_iso_2022_jp_katakana_0` (lib/whatwg/encoding/indexes_pointer.cpp:23), 63 entries. -/
def ptr0Iso2022JpKatakana : Table := ⟨20, 63, ptr0Iso2022JpKatakanaData⟩

/-- Rows of `index_pointer_iso_2022_jp_katakana_1`. -/
def ptr1Iso2022JpKatakanaData : Nat := pack 480 [
  0x0021000e0020001f001e001d001c001b001a001900180017001600150014000a00130009001200080011000700100006003e003d0002000100000003,
  0x0005003b003a00390038003700360035000d0034000c0033000b003200310030002f002e002d002c002b002a00290028002700260025002400230022,
  0x000f0004003c]

/-- `index_pointer_iso_2022_jp_katakana_1` (lib/whatwg/encoding/indexes_pointer.cpp:24), 63 entries. -/
def ptr1Iso2022JpKatakana : Table := ⟨16, 63, ptr1Iso2022JpKatakanaData⟩

/-- Rows of `index_pointer_Shift_JIS_0`. -/
def ptr0ShiftJISData : Nat := pack 480 [
  0x003a00039f0039e0039d0039c0039b0039a003990039800397003960039500394003930039200391000f7000d7000b6000b4000b1000b0000a8000a7,
  0x003c0003bf003be003bd003bc003bb003ba003b9003b8003b7003b6003b5003b4003b3003b2003b1003a9003a8003a7003a6003a5003a4003a3003a1,
  0x0041e0041d0041c0041b0041a0041900418004170041600415004140041300412004110041000401003c9003c8003c7003c6003c5003c4003c3003c1,
  0x004360043500434004330043200431004300042f0042e0042d0042c0042b0042a004290042800427004260042500424004230042200421004200041f,
  0x0044e0044d0044c0044b0044a004490044800447004460044500444004430044200441004400043f0043e0043d0043c0043b0043a004390043800437,
  0x021630216202161021600212b0212102116021030203b020330203202030020260202502021020200201d0201c02019020180201502010004510044f,
  0x0220202200021d4021d20219302192021910219002179021780217702176021750217402173021720217102170021690216802167021660216502164,
  0x0226102260022520223d02235022340222e0222c0222b0222a02229022280222702225022200221f0221e0221d0221a022110220b022080220702203,
  0x0246c0246b0246a0246902468024670246602465024640246302462024610246002312022bf022a5022870228602283022820226b0226a0226702266,
  0x0252402523025200251d0251c0251b02518025170251402513025100250f0250c02503025020250102500024730247202471024700246f0246e0246d,
  0x025cb025c7025c6025bd025bc025b3025b2025a1025a00254b025420253f0253c0253b02538025370253402533025300252f0252c0252b0252802525,
  0x0300e0300d0300c0300b0300a0300903008030070300603005030030300203001030000266f0266d0266a02642026400260602605025ef025cf025ce,
  0x0304f0304e0304d0304c0304b0304a0304903048030470304603045030440304303042030410301f0301d0301503014030130301203011030100300f,
  0x03067030660306503064030630306203061030600305f0305e0305d0305c0305b0305a03059030580305703056030550305403053030520305103050,
  0x0307f0307e0307d0307c0307b0307a030790307803077030760307503074030730307203071030700306f0306e0306d0306c0306b0306a0306903068,
  0x0309e0309d0309c0309b030930309203091030900308f0308e0308d0308c0308b0308a03089030880308703086030850308403083030820308103080,
  0x030b8030b7030b6030b5030b4030b3030b2030b1030b0030af030ae030ad030ac030ab030aa030a9030a8030a7030a6030a5030a4030a3030a2030a1,
  0x030d0030cf030ce030cd030cc030cb030ca030c9030c8030c7030c6030c5030c4030c3030c2030c1030c0030bf030be030bd030bc030bb030ba030b9,
  0x030e8030e7030e6030e5030e4030e3030e2030e1030e0030df030de030dd030dc030db030da030d9030d8030d7030d6030d5030d4030d3030d2030d1,
  0x032a6032a5032a4032390323203231030fe030fd030fc030fb030f6030f5030f4030f3030f2030f1030f0030ef030ee030ed030ec030eb030ea030e9,
  0x0338f0338e0337e0337d0337c0337b03357033510334d0334a033490333b033360332b0332703326033230332203318033140330d03303032a8032a7,
  0x04e1904e1804e1704e1604e1504e1404e1104e1004e0e04e0d04e0b04e0a04e0904e0804e0704e0304e0104e00033cd033c4033a10339e0339d0339c,
  0x04e5704e5604e5504e4f04e4e04e4d04e4b04e4504e4304e4204e3f04e3c04e3b04e3904e3804e3604e3204e3104e2d04e2a04e2804e2604e2104e1e,
  0x04e9804e9504e9404e9204e9104e8e04e8c04e8b04e8a04e8904e8804e8604e8504e8204e8004e7e04e7304e7104e6204e5f04e5e04e5d04e5904e58,
  0x04ec404ec204ec104ec004eba04eb604eb304eb004eae04ead04eac04eab04ea804ea604ea504ea404ea204ea104ea004e9f04e9e04e9c04e9b04e99,
  0x04ef204ef004eee04eed04ee504ee404ee304ee104edf04ede04edd04ed904ed804ed704ed604ed504ed404ecf04ece04ecd04ecb04eca04ec704ec6,
  0x04f3a04f3904f3804f3604f3404f3004f2f04f1d04f1c04f1a04f1104f1004f0f04f0e04f0d04f0a04f0904f0304f0104f0004efc04efb04ef704ef6,
  0x04f7304f7004f6f04f6904f5e04f5d04f5c04f5b04f5a04f5904f5704f5604f5504f5304f5104f5004f4f04f4e04f4d04f4704f4604f4304f3d04f3c,
  0x04fad04fab04fa104fa004f9d04f9b04f9a04f9804f9604f9404f9204f9104f8f04f8d04f8b04f8a04f8804f8604f8304f7f04f7c04f7b04f7604f75,
  0x04fe404fe304fe104fdf04fdd04fdb04fda04fd804fd704fd404fd104fd004fce04fcd04fca04fc904fc404fc304fc204fbf04fb604fb504faf04fae,
  0x0501f0501e0501a05019050160501405012050110500f0500d0500b05009050060500504fff04ffe04ffa04ff804ff604ff504ff304fef04fee04fe5,
  0x05055050500504f0504905048050470504605043050420504005039050360502d0502c0502b0502a0502905028050260502505024050230502205021,
  0x050b3050b2050ad050ac0509a050990509805094050910508d05085050800507d0507805076050750507405072050700506c050650505c0505a05056,
  0x050f9050f5050f4050ee050ed050e7050e5050e3050de050da050d8050d6050d5050d1050cf050cd050ca050c9050c5050c2050be050b7050b5050b4,
  0x0514305141051400513f0513c0513b0513a05137051320512a051210511f0511a05118051160511505114051120510905104051020510105100050fb,
  0x0516c0516b0516a05169051680516505164051620515c0515a0515405152051500514e0514d0514c0514b0514a051490514805147051460514505144,
  0x051970519605195051930519205191051900518f0518d0518c0518a05189051860518505182051800517c05178051770517605175051710516e0516d,
  0x051c5051c4051be051bd051b7051b6051b5051b4051b3051b2051b1051b0051ac051ab051aa051a9051a8051a6051a5051a4051a2051a00519d05199,
  0x051fa051f9051f8051f6051f5051f1051f0051ed051ec051ea051e9051e7051e6051e1051e0051dd051dc051db051d6051cd051cc051cb051c9051c6,
  0x05233052300522e0522a052290522705225052240521d052170521505214052110520e0520b0520a052080520705206052040520305200051fe051fd,
  0x0526f0526a052690526505264052630525e0525b05256052540524f0524d0524c0524b0524a0524705244052430523b0523a05239052380523705236,
  0x052aa052a9052a6052a3052a00529f0529c0529b0529405292052910528d052890528805287052830527f0527d052750527405273052720527105270,
  0x052dd052db052d9052d8052d7052d5052d2052cd052c9052c7052c5052c3052c1052c0052be052bc052b9052b5052b4052b1052af052ad052ac052ab,
  0x0530d05308053070530605305053020530105300052ff052fe052fa052f9052f8052f5052f3052f2052e7052e6052e4052e3052e2052e0052df052de,
  0x0534305341053400533f0533b0533a053390533805333053310532f0532a053240532305321053200531d0531a05319053170531605315053100530f,
  0x0537205371053700536f0536e0536905366053600535e0535c0535a0535805357053540535305352053510534d0534a0534905348053470534605345,
  0x053b3053b2053b0053ae053ad053a9053a8053a6053a5053a00539f0539a05398053960539305384053820537f0537b0537805377053750537405373,
  0x053e8053e5053e4053e3053e2053e1053df053dd053db053d9053d7053d6053d4053ce053cd053cc053cb053ca053c9053c8053c3053c2053bb053b6,
  0x0540d0540c0540b0540a0540905408054040540305401053fa053f8053f7053f6053f3053f2053f1053f0053ef053ee053ed053ec053eb053ea053e9,
  0x0544605442054400543e0543d0543c0543b0543905438054360542e0542d0542c0542b0542905426054200541f0541d0541b05411054100540f0540e,
  0x0548e0548c0548b0548a0548605484054800547d0547c0547b0547705476054750547305471054700546a054680545f054510544e0544a0544905448,
  0x054c8054c7054c4054c2054c1054c0054be054bd054bc054b8054b3054b2054af054ac054ab054a9054a8054a5054a4054a20549c05492054900548f,
  0x055310552f0552e0551605514055100550f055070550605504054ff054fd054fa054f2054ee054ed054e9054e8054e6054e5054e2054e1054d8054c9,
  0x05587055860558405583055800557e0557c0557b055630555d0555c0555705556055530554f0554c055460554505544055400553e055390553805533,
  0x055da055d4055c7055c5055c4055b6055b0055ae055ac055ab055aa055a9055a8055a70559f0559e0559d0559c0559a05599055980558b0558a05589,
  0x0564c0564205638056360563405632056310562f056290561b056180561705616056140560905606055fe055fd055f9055f7055e4055e3055df055dc,
  0x056bc056b6056b4056ae056a5056a2056a0056940568f0568a0568705686056800567a05678056740566c0566b0566a05668056640565b056500564e,
  0x05700056ff056fd056fa056f9056f3056f2056f0056ee056e3056e0056de056db056da056d8056d7056d3056d1056ce056c8056c3056c2056c1056c0,
  0x0574705742057400573b0573805737057300572d0572805727057260571f0571c057180571605713057120570f0570d0570b05709057080570405703,
  0x057ac057aa057a4057a3057a2057a0057930578b0578905788057820577f0576a05769057660576505764057610575905751057500574f0574e0574a,
  0x0580205800057fc057fa057f9057f7057f4057e3057e0057df057dc057d6057d4057d3057d2057ce057cb057c8057c7057c6057c3057c0057b3057b0,
  0x0585405852058510584b0584a05841058400583d0583a058350583405831058300582f0582a05824058210581d05819058150580b0580a0580605805,
  0x058b2058ae058ab058a80589f0589e0589c058970589305885058830587e058790587505872058700586b05869058620585e0585a058590585805857,
  0x058ec058eb058e5058e4058df058de058dc058d9058d8058d7058d5058d3058d1058cc058ca058c7058c5058c1058be058bb058ba058b9058b8058b3,
  0x0591c0591b0591a05919059180591605915059100590f0590b0590a0590905902058fd058fc058fb058fa058f9058f7058f2058f1058f0058ef058ee,
  0x059540595305951059500594f0594e059490594805947059440593e059380593705932059310592e0592d0592c0592b0592a05929059270592505922,
  0x059840598305982059810597d0597805974059730596e0596c0596a059690596805967059650596305962059600595d0595b0595a059580595705955,
  0x059d4059d3059d1059d0059cb059c9059c6059be059bb059ba059b9059b2059ac059a8059a5059a4059a30599d0599b0599905996059930598d0598a,
  0x05a3505a2f05a2905a2505a2005a1f05a1c05a1a05a1805a1105a0905a0305a01059ff059fb059f6059eb059ea059e8059e6059e5059dc059da059d9,
  0x05ad005acc05acb05ac905ac205ac105abe05abd05abc05a9b05a9a05a9205a7f05a6c05a6a05a6605a6205a5a05a4905a4605a4105a4005a3c05a36,
  0x05b5105b5005b4505b4305b4005b3e05b3605b3205b3005b2c05b2a05b2205b1605b0c05b0b05b0905afb05afa05ae905ae605ae305ae105ad705ad6,
  0x05b8305b8005b7a05b7805b7505b7305b7105b7005b6b05b6905b6605b6505b6405b6305b5f05b5d05b5c05b5b05b5a05b5805b5705b5605b5505b54,
  0x05bb005bae05ba605ba505ba405ba305ba205b9f05b9d05b9c05b9b05b9a05b9905b9805b9705b9505b8f05b8d05b8c05b8b05b8905b8805b8705b85,
  0x05bde05bdd05bdb05bd805bd405bd305bd205bd005bcc05bc905bc705bc605bc505bc405bc305bc205bc005bbf05bb905bb805bb605bb505bb405bb3,
  0x05c0505c0405c0205c0105bff05bfe05bfa05bf805bf605bf505bf305bf005bee05bec05beb05be905be805be705be605be505be405be205be105bdf,
  0x05c3b05c3a05c3905c3805c3105c2d05c2805c2405c2205c2005c1e05c1a05c1605c1305c1105c0f05c0e05c0d05c0b05c0a05c0905c0805c0705c06,
  0x05c6c05c6505c6405c6105c6005c5e05c5505c5305c5105c5005c4f05c4e05c4d05c4b05c4a05c4805c4605c4505c4105c4005c3f05c3e05c3d05c3c,
  0x05cbe05cbc05cbb05cba05cb805cb705cb605cb305cb105cac05cab05ca905ca805ca605ca105c9405c9105c9005c8c05c7905c7605c7105c6f05c6e,
  0x05d1705d1605d1505d1405d1105d0e05d0b05d0705cfd05cfb05cfa05cf605cf505cf005cef05ced05cea05ce905ce805ce105ce005cd905cc705cc5,
  0x05d8405d8205d7605d7305d6f05d6d05d6c05d6905d5c05d5305d5205d5005d4e05d4c05d4b05d4205d2905d2705d2205d1f05d1b05d1a05d1905d18,
  0x05dde05ddd05ddb05dd605dd305dd205dd005dcd05dcc05dc905dbd05dbc05dba05db905db805db705dae05dac05da205d9d05d9005d8c05d8b05d87,
  0x05e1605e1105e0c05e0b05e0605e0305e0205dfe05dfd05dfb05df705df505df405df305df205df105dee05deb05de805de705de605de505de305de1,
  0x05e5705e5505e5405e4e05e4c05e4705e4505e4405e4305e4005e3d05e3805e3705e3605e3305e3005e2f05e2d05e2b05e2505e1d05e1b05e1a05e19,
  0x05e8f05e8a05e8705e8405e8305e8105e7f05e7e05e7d05e7c05e7b05e7a05e7905e7805e7605e7505e7405e7305e7205e6405e6305e6205e6105e5f,
  0x05ed605ed305ed005ecf05eca05ec905ec805ec305ec205ec105eb805eb705eb605eb505ead05eab05ea705ea605ea005e9c05e9a05e9705e9605e95,
  0x05f0105eff05efe05efc05efb05efa05ef805ef705ef605ef405ef305ef105ef005eec05ee905ee805ee305ee205ee105ee005edf05edd05edb05eda,
  0x05f2d05f2905f2705f2605f2505f2105f1f05f1b05f1805f1705f1605f1505f1405f1305f1105f1005f0f05f0d05f0c05f0b05f0a05f0905f0405f03,
  0x05f6605f6205f6105f5d05f5c05f5905f5705f5605f5305f5105f4e05f4c05f4a05f4805f4505f4105f3e05f3c05f3805f3705f3505f3405f3105f2f,
  0x05f8c05f8b05f8a05f8805f8705f8505f8405f8305f8205f8105f8005f7f05f7c05f7905f7705f7305f7105f7005f6d05f6c05f6b05f6a05f6905f67,
  0x05fcc05fc505fc305fbd05fbc05fb905fb705fb405fb305fae05fad05faa05fa905fa805fa105fa005f9e05f9905f9805f9705f9305f9205f9105f90,
  0x060160601506012060100600f0600e05fff05ffd05ffb05ff805ff505ff105ff005feb05fe405fe005fde05fdd05fdc05fd905fd805fd705fd605fcd,
  0x060500604d0604b0604a060460604306042060410603a060310602f0602b0602a060290602806027060260602506021060200601d0601c0601b06019,
  0x0608406083060810607706075060700606f0606d0606c0606b0606a060690606806065060640606306062060600605f0605d0605a060590605506052,
  0x060b6060b5060b4060b3060b2060aa060a9060a7060a6060a3060a00609f0609b0609a060970609606094060920608d0608c0608b0608a0608906085,
  0x060f4060f3060f2060f1060f0060e8060e7060e3060e1060e0060df060de060dc060da060d8060d5060d3060d1060c7060c6060c5060bd060bc060b8,
  0x0612c061280612706121061200611f0611b0611a06115061110610f0610e0610d061090610806106061030610106100060fb060fa060f9060f7060f6,
  0x061620615f0615d0615a061590615806155061530614e0614d0614c0614b0614a061480614706144061420613f0613e0613d0613c061370613406130,
  0x06198061960619406191061900618e0618a06187061820617e061770617606175061740617306171061700616f0616e0616b06168061670616506163,
  0x061e6061e3061d0061cd061cc061cb061ca061c9061c8061c7061c6061c3061be061ba061b6061b2061ae061ac061ab061a9061a7061a40619a06199,
  0x0621a0621606214062130621206211062100620e0620d0620c0620a062090620806200061ff061fe061fd061fc061fa061f8061f7061f6061f4061f2,
  0x0624e0624d0624b06249062480624706241062400623f0623b06238062340623306232062300622f0622e0622a06226062210621f0621e0621d0621b,
  0x0629306292062910628a06289062840628306282062800627f0627e0627c0627906276062710626e0626806263062600625e0625b062580625506253,
  0x062ca062c9062c8062c7062c6062c5062c2062bd062bc062bb062b9062b5062b1062ac062ab062a60629e0629c0629b0629806297062960629506294,
  0x062f6062f5062f3062f1062ef062ee062ed062ec062e1062e0062dd062dc062db062d9062d8062d7062d4062d3062d2062d1062d0062cf062cd062cc,
  0x0634f0634d0634c063490633f0633e0633d0633a0632f0632b06328063270631f06319063110630c0630906308063070630206301062ff062fe062f7,
  0x0639806396063920638f0638e0638c063890638806383063800637b0637a0637706376063720636e0636b0636906368063670635c063570635506350,
  0x063cf063c9063c6063c4063c3063c0063be063bb063b5063b4063b2063ac063ab063aa063a9063a8063a7063a5063a3063a2063a1063a00639f0639b,
  0x0642d0642c06428064260641c0641706416064130640f0640d06406063fa063f6063f5063f4063ee063e9063e3063e1063db063da063d6063d2063d0,
  0x064a5064a40649e0649d0649a06495064930649206488064830647a06478064760646f064690646706460064580644e064420643e0643a0643606434,
  0x064e6064e3064e2064e1064e0064da064d8064d4064d2064ce064cd064c7064c5064c2064c1064bc064bb064b9064b2064b0064ae064ad064ab064a9,
  0x0653606535065340652f0652c0652b0652a06524065230651d0651c065180650506500064fe064fd064fa064f6064f4064f2064f1064ef064ec064e7,
  0x065700656c0656606563065620655e0655d0655906558065570655606555065510654f0654e0654d06548065450653f0653e0653b065390653806537,
  0x065ab065a7065a5065a4065a10659f0659c0659b065990659706591065900658e0658c06589065880658706583065820657806577065750657406572,
  0x065e5065e2065e1065e0065db065d9065d7065d2065cf065cc065cb065c6065c5065c4065c3065c1065bd065bc065b9065b7065b0065af065ad065ac,
  0x0661e0661c0661506614066130660f0660e0660c0660a066090660706606066030660206600065fb065fa065f1065ed065ec065e9065e8065e7065e6,
  0x066520664f0664b06649066440664306642066410663f0663c0663b066360663506634066310662f0662e0662d06628066270662506624066200661f,
  0x06688066870668406683066810667a066760667406673066700666f0666e066690666806667066660666506664066620665f0665e0665d0665906657,
  0x066c9066c7066c4066c1066bf066be066bc066b9066b8066b4066b2066ae066ab066a6066a2066a00669d06699066980669706696066910668e06689,
  0x0670306700066ff066fe066fd066fc066fb066fa066f9066f8066f7066f5066f4066f3066f2066f0066e9066e6066e0066dd066dc066da066d9066d6,
  0x06734067310672e0672d0672c0672b0672a0672806727067260671f0671e0671d0671b067170671606715067140670f0670e0670d0670b0670906708,
  0x06764067630676206761067600675f0675e0675c06759067560675306751067500674f0674e0674906746067410673f0673d0673a067380673706736,
  0x0679c0679a0679706795067900678c0678b0678906787067850677f0677e0677c0677706775067730677206771067700676f0676d0676a0676606765,
  0x067d3067d1067d0067cf067ce067ca067c6067c4067c1067c0067bb067b9067b8067b7067b6067b4067b3067af067a9067a6067a2067a1067a00679d,
  0x0681306804068030680206801067ff067fe067fb067f5067f4067f3067f1067ef067ee067ec067e9067e7067e4067e2067de067dd067da067d8067d4,
  0x068500684e0684d068480684606844068430684206841068400683d0683c068390683806834068320682b0682a0682906822068210681e0681706816,
  0x0689b0689706894068930688f0688d0688506883068810687f0687e06877068760687406867068630685f0685d0685c0685906854068530685206851,
  0x068cd068cb068ca068c9068c8068c6068c4068bc068ba068b9068b6068b5068b3068b1068b0068af068ad068a8068a7068a6068a2068a00689f0689d,
  0x0690c0690b0690806905069040690106900068fa068f9068f2068ef068ee068e7068e3068e1068e0068df068da068d8068d7068d5068d4068d2068cf,
  0x06954069530694a0693f0693d069390693606934069300692a0692806926069250692306922069210691c0691b0691a06919069120690f0690e0690d,
  0x0697e0697d0697c0697906978069770697506974069730696f0696e0696d0696b0696a069680696206961069600695e0695d0695c0695a0695906955,
  0x069cb069ca069c7069c3069c1069bf069be069bb069b4069b2069b1069ae069a7069a00699c0699b069980699506994069910698e0698a0698206981,
  0x06a0c06a0b06a0a06a0506a02069ff069fd069fb069f9069f2069ed069eb069e8069e7069e2069de069dd069d9069d8069d3069d0069ce069cd069cc,
  0x06a4606a4406a3d06a3a06a3906a3806a3606a3506a3006a2e06a2b06a2a06a2906a2306a2206a2106a1f06a1e06a1b06a1906a1706a1406a1306a12,
  0x06aa206aa006a9c06a9706a9006a8e06a8d06a8406a8006a7f06a7e06a7806a7306a7206a6b06a6606a6206a6106a5f06a5906a5806a4b06a4806a47,
  0x06b0506b0406afb06afa06aea06ae806ae406ae206adf06ade06adb06ada06ad306ad106ac306ac206ac106abb06ab806ab306aae06aac06aaa06aa3,
  0x06b5406b5306b5006b4e06b4c06b4906b4706b4306b3e06b3d06b3a06b3906b3806b3706b3206b2706b2306b2106b2006b1f06b1d06b1606b1206b0a,
  0x06b8b06b8a06b8906b8606b8406b8306b8006b7f06b7b06b7906b7806b7406b7306b6f06b6a06b6906b6606b6406b6306b6206b6106b5f06b5b06b59,
  0x06bcd06bcb06bc606bc506bc006bbf06bbc06bbb06bba06bb706bb506bb406bb306bb206bb106baf06bab06baa06ba406b9e06b9806b9606b9506b8d,
  0x06c3806c3706c3406c2406c2306c1b06c1706c1406c1306c1106c0f06c0806bf306bef06bec06beb06bdf06bdb06bd806bd606bd406bd306bd206bce,
  0x06c7d06c7a06c7306c7206c7006c6f06c6a06c6806c6206c6006c5f06c5e06c5d06c5c06c5a06c5706c5506c5006c4e06c4206c4106c4006c3f06c3e,
  0x06cba06cb906cb806cb306cb106cae06cab06ca206ca106c9b06c9a06c9906c9606c9306c9206c9006c8d06c8c06c8806c8606c8306c8206c8106c7e,
  0x06cea06ce806ce506ce306ce206ce106cdd06cdb06cda06cd906cd706cd506cd306ccc06cca06cc906cc506cc406cc106cbf06cbe06cbd06cbc06cbb,
  0x06d3d06d3b06d3806d3606d3506d3306d3206d2b06d2a06d2906d2506d1f06d1e06d1b06d1906d1706d1206d0c06d0b06d0406cf306cf106cf006cef,
  0x06d8e06d8c06d8806d8706d8506d7906d7806d7706d7406d6f06d6e06d6c06d6a06d6906d6606d6406d6306d5c06d5a06d5906d4506d4406d4106d3e,
  0x06dd906dd806dd506dd206dd106dcf06dcc06dcb06dc706dc606dc506dc006dbc06db806db506db206daf06dac06d9c06d9b06d9906d9606d9506d93,
  0x06e0a06e0906e0806e0706e0506dfc06dfb06dfa06df906df806df706df506df306df206df106dee06dec06deb06dea06de806de606de406de106dde,
  0x06e3a06e3906e3806e2f06e2e06e2d06e2c06e2b06e2906e2706e2606e2506e2406e2306e2106e2006e1f06e1d06e1b06e1a06e1906e1506e1306e0b,
  0x06e9006e8f06e8c06e8206e8006e7f06e7e06e7606e7206e6f06e6e06e6b06e6706e5f06e5c06e5b06e5806e5606e4e06e4d06e4a06e4306e3e06e3c,
  0x06ed406ed306ed106ecc06ecb06ec906ec506ec406ec206ebf06ebd06eba06eb706eb606eb206eaf06eaa06ea506ea206e9f06e9d06e9c06e9806e96,
  0x06f2b06f2306f2206f2006f1506f1406f1306f1106f0f06f0906f0606f0206f0106eff06efe06ef806ef706ef406ef206eef06eec06ede06edd06ed5,
  0x06f8006f7c06f7a06f7806f7406f7006f6f06f6e06f6d06f6606f6406f5f06f5c06f5b06f5806f5406f4506f4106f3f06f3e06f3806f3206f3106f2c,
  0x06fd806fd506fd406fc606fc306fc206fc106fc006fb906fb506fb306fb106faa06fa406fa306fa106f9706f9106f8e06f8806f8606f8406f8206f81,
  0x0701807015070110700f0700b0700907007070050700106ffe06ffa06ff606ff506ff306ff106fef06fee06fec06feb06fe406fe106fe006fdf06fdb,
  0x07089070850707d0707c07078070700706f0706b0706307058070510704c0703e07032070300702c0702807027070260701f0701e0701d0701b0701a,
  0x07104070fd070f9070f1070df070dd070d9070cf070cb070c8070bb070ba070b9070b8070b3070af070ae070ad070ac070ab07099070920708e0708a,
  0x07167071660716507164071620715c0715907156071550714e0714c0714907147071460713c0713607126071210711c0711a07119071140710f07109,
  0x071d2071d0071ce071c9071c8071c3071c1071be071b9071b1071ac071a80719f0719907195071940718f0718a07188071840717d0716e0716c07169,
  0x0722c0722a072280721b072100720d07206071ff071fe071fc071fb071f9071f5071ee071ed071ec071e7071e6071e5071e0071df071d7071d5071d4,
  0x072610725f0725d0725b0725907258072520724c0724b072480724707246072400723f0723e0723d0723c0723b0723a072360723507232072300722d,
  0x072be072b9072b6072b2072b1072af072ac072a7072a2072a00729607292072870728207281072800727e0727d072790727407272072690726707262,
  0x07317073160730a072fd072fc072f9072f8072f7072ed072ec072e9072e2072e1072e0072db072d9072d7072d2072d0072ce072c6072c4072c3072c2,
  0x0736a0736807363073570734f0734e07345073440733f0733e0733707336073340732f0732e0732b0732a0732907325073240731f0731d0731c0731b,
  0x073ce073cd073ca073c9073c8073c2073c0073bd073bb073b3073b2073a9073960738b0738907387073840737b0737a0737807377073750737207370,
  0x0742e0742a074290742607425074220740907407074060740507403073fe073f8073f5073f1073ee073ed073ea073e5073e3073e0073de073d6073d2,
  0x07473074700746f0746a07469074640746307462074600745f0745e0745c0745b0745a0745907455074410743f0743a0743607435074340743307432,
  0x074f1074f0074ee074e9074e7074e6074e3074e2074e0074dc074d4074cf074ca074bd074b0074a7074a20749f0749e0748b07489074830747e07476,
  0x0752b075280752607525075230751f0751e0751c0751a075180751507513075110750e0750d0750c07505075040750307501074f8074f7074f6074f2,
  0x0755b0755a0755907554075510754f0754d0754c0754b0754a0754907546075440753c0753b0753a0753807537075330753207531075300752f0752c,
  0x075890758707586075820757f0757807577075760757407573075700756f0756d0756b0756a075690756707566075650756407562075600755d0755c,
  0x075c7075c5075c3075c2075be075bd075bc075b9075b8075b5075b3075b2075b1075ab075a5075a30759d0759a07594075910758f0758e0758b0758a,
  0x0760d0760b0760907601075ff075fe075fc075fa075f4075f3075f2075f0075e9075e3075e2075de075db075d9075d8075d5075d4075d2075cd075ca,
  0x0766a07669076680766707662076610765c0765807656076520764c076480764707646076420763b076340763007627076240762207621076200761f,
  0x0769a076990769607693076900768e0768b076880768707686076840768307682076800767e0767d0767c0767b0767a076780767607672076700766c,
  0x076de076dc076db076d7076d6076d2076cd076ca076c8076c6076c3076c2076bf076ba076b9076b8076b7076b4076b0076ae076a60769e0769c0769b,
  0x077200771f0771e0771b0770c0770b0770907708077070770407701076fe076fb076f8076f4076f2076ee076ea076e7076e5076e4076e3076e1076df,
  0x0778e0778b0777f0777e077790776b07768077660776507763077610775b0775a0774707746077400773c0773a077380773707729077260772507724,
  0x077e7077e5077e3077e2077dc077db077da077d7077cd077c7077bf077bd077bc077bb077b9077b6077b3077b0077ad077ac077a5077a00779e07791,
  0x078640785d0784e078450783f0783a078340783207827078260782507821078200781507814078120780c07802077fc077f3077ef077ee077ed077e9,
  0x078b5078af078aa078a9078a7078a30789a078970789507893078910788e0788d0788c0788707886078810787c0787a07874078720786f0786c0786b,
  0x0791907912079110790e0790707901078fd078f4078ef078ec078e8078e7078da078d4078d1078d0078cb078ca078c6078c5078c1078be078bc078ba,
  0x07962079600795f0795e0795d0795a079570795607955079530795007949079480794707941079400793e0793c0793a079300792c0792b0792a07926,
  0x079b9079b3079b0079ae079aa079a7079a60799d0799b079940798f0798e0798d0798a079850798407981079800797f0797a079770796d0796807965,
  0x07a0807a00079fb079f0079ec079e9079e7079e6079e4079e3079e1079df079d8079d5079d2079d1079cb079c9079c1079c0079bf079be079bd079ba,
  0x07a4607a4307a4207a4007a3f07a3e07a3d07a3c07a3b07a3707a3207a3107a2e07a2007a1f07a1c07a1a07a1907a1807a1707a1407a0e07a0d07a0b,
  0x07a9307a9207a8807a8407a8307a8107a7f07a7d07a7a07a7907a7607a7407a7007a6b07a6907a6307a6207a6107a5707a5007a4f07a4e07a4d07a49,
  0x07ad207ad107acf07acd07acb07aca07ac807ac707ac507ac407ac307abf07aba07ab607ab007aaf07aae07aaa07aa907a9f07a9807a9707a9607a95,
  0x07aff07afa07af907af807af607af007aef07aed07aeb07aea07ae707ae607ae507ae307ae207ae107ae007adf07add07adc07ada07ad907ad507ad3,
  0x07b4807b4607b4507b3907b3607b3507b3307b2c07b2807b2607b2507b2007b1e07b1b07b1907b1807b1107b0f07b0b07b0a07b0807b0607b0407b02,
  0x07b8d07b8b07b8707b8607b7a07b7507b7407b7107b7007b6e07b6c07b6707b6507b5d07b5607b5407b5207b5107b5007b4f07b4d07b4c07b4b07b49,
  0x07bc907bc707bc607bc407bc107bc007bb807bb407bb107bad07baa07ba107b9f07b9e07b9d07b9c07b9a07b9907b9807b9707b9507b9407b9207b8f,
  0x07c2307c2107c1f07c1707c1407c1307c1207c1107c0d07c0707c0007bf707bf607bf307bed07be907be607be507be407be007bdd07bcf07bcc07bcb,
  0x07c7507c7307c6c07c6507c6407c6007c5f07c5807c5607c5407c5007c4f07c4d07c4c07c4307c4007c3f07c3e07c3d07c3807c3707c2b07c2a07c27,
  0x07cb107cae07cad07cab07ca807ca707ca507ca407ca207ca107c9f07c9b07c9807c9707c9507c9207c9007c8d07c8b07c8907c8307c8207c8107c7e,
  0x07cf807cf607cf407cf207cef07ce707ce207ce007cdf07cde07cdc07cd807cd607cd207cce07cca07cc507cc207cc007cbe07cbd07cb907cb307cb2,
  0x07d2b07d2207d2107d2007d1c07d1b07d1a07d1907d1807d1707d1507d1407d1007d0d07d0b07d0a07d0607d0507d0407d0207d0007cfe07cfb07cfa,
  0x07d5c07d5b07d5607d5007d4f07d4e07d4c07d4b07d4807d4607d4507d4407d4307d4207d3f07d3a07d3907d3507d3307d3207d3007d2f07d2e07d2c,
  0x07da207da007d9f07d9c07d9b07d9a07d9907d9307d8f07d8907d7d07d7907d7607d7507d7307d7207d7107d6e07d6807d6607d6307d6207d6107d5e,
  0x07dd207dd107dcf07dcb07dca07dc707dbf07dbe07dbd07dbb07dba07db807db707db507db407db207db107db007daf07dae07dad07dac07dab07da3,
  0x07e1207e0b07e0a07e0907e0507e0407e0107dfb07df407df207def07dec07de907de807de407de107de007dde07ddd07ddc07dda07dd807dd607dd5,
  0x07e4d07e4b07e4a07e4607e4307e4107e3e07e3d07e3b07e3a07e3907e3707e3507e3207e3107e2e07e2b07e2607e2307e2207e2107e1f07e1e07e1b,
  0x07e8a07e8907e8807e8307e8207e7f07e7d07e7c07e7b07e7907e7007e6d07e6a07e6907e6707e6607e5e07e5d07e5a07e5907e5607e5507e5407e52,
  0x07f5f07f5807f5507f5407f5107f5007f4e07f4d07f4c07f4707f4507f3a07f3807f3607e9c07e9b07e9607e9407e9307e9207e9007e8f07e8e07e8c,
  0x07f9a07f9407f8e07f8c07f8a07f8807f8707f8607f8507f8307f8207f7907f7807f7707f7507f7207f7007f6e07f6b07f6a07f6907f6807f6707f60,
  0x07fe107fe007fd507fd407fd207fcc07fca07fc607fc507fc107fbd07fb907fb807fb607fb207faf07fae07fa907fa807fa407fa307fa107f9e07f9d,
  0x080210801c0801908018080170801508012080100800c0800b08006080050800408003080010800007ffc07ffb07ff907ff307ff007feb07fe907fe6,
  0x0807708076080740807308072080700806f0806808062080610805f0805e0805a0805808056080520804a080460803f0803d0803b080360803308028,
  0x080ad080ac080aa080a9080a5080a2080a10809d0809b0809a0809808096080930808c0808b08089080870808608085080840807f0807e0807d08079,
  0x080fc080f8080f4080f1080ef080e5080e4080e1080de080dd080db080da080d9080d6080ce080cc080c6080c4080c3080ba080b4080b2080b1080af,
  0x081540815308151081500814e0814b081460813e0813908133081310812f08129081230811b0811a0810a081090810808107081060810508102080fd,
  0x0819d0819c0819a08195081930818f0818a081880818308182081800817f0817a08179081780817408171081700816e0816b08166081650815f08155,
  0x081da081d9081d8081d3081d1081cd081c9081c8081c6081c2081c0081bf081be081bd081ba081b8081b5081b3081b0081a9081a8081a4081a3081a0,
  0x0820e0820d0820c0820a082090820808207082050820208201081fe081fc081fb081fa081f4081f3081ed081ea081e8081e7081e5081e3081e0081df,
  0x082590825808247082400823908238082370823608235082330822e0822c0822b0822a082290821f0821e0821c0821b0821808217082160821208210,
  0x082a50829f0829d08299082920828d0828b0827e08278082770827608272082710826f0826e0826b0826a082680826608264082620825f0825d0825a,
  0x082e3082e1082df082de082dc082db082d9082d7082d4082d3082d2082d1082c5082bd082bb082b9082b8082b3082b1082af082ad082ac082ab082a6,
  0x08328083230831c0831808317083160830e08309083060830508304083030830208301082fb082fa082f9082f4082f3082f1082eb082e7082e6082e5,
  0x0837f0837c0837b083770837508373083620835808352083500834f0834a083490834508340083390833808336083350833408332083310832f0832b,
  0x083ce083cc083ca083c7083c5083c1083bd083b5083b1083ab083aa083a8083a2083a00839f0839e0839a08396083930838e0838a083890838708385,
  0x0840e0840d0840c0840b084070840408403083fd083fb083f7083f6083f4083f2083f1083f0083ef083eb083e9083e0083df083dc083d8083d6083d3,
  0x0846c0846b08469084660846308462084610845b084570844e0844908448084460843d0843c0843808435084310842c0842a08429084220842008413,
  0x084bc084bb084b9084b8084b4084b2084ad084a10849f0849c0849908494084900848b08484084820847a084790847708475084710846f0846e0846d,
  0x0851408513085110850608500084ff084fc084f4084ee084ec084dc084da084d9084d6084d1084d0084cd084cb084ca084c9084c6084c4084c1084bf,
  0x08559085580855708555085530854e0854b0854a08549085480854308541085400853d085350852d0852c08526085210851f0851a085180851708515,
  0x085a8085a6085a40859c0859b08599085970859408591085900858a085880858708584085800857e085770856d0856b0856a0856908568085630855a,
  0x085fa085f9085f7085ea085e9085e5085e4085dd085dc085d5085d0085cf085cd085c9085c1085ba085b9085b0085af085ae085ac085ab085aa085a9,
  0x0865e0865c0865a0865508654086500864e0864d0863f086300862f0862d086220861a0861708616086130860b0860a086070860608602085fe085fb,
  0x086cb086c9086c7086c6086c4086b6086b0086af086ab086aa086a9086a4086a308695086930868c0868b0868a0867b08679086710866b086670865f,
  0x0870a087090870808706087030870208700086fe086fb086f9086f8086ef086ee086ed086ec086e9086e4086df086de086db086d9086d4086ce086cd,
  0x0876608763087600875f087590875708755087530874e0874c0874b087490873f0873b087370873408729087250871c0871a0871808712087110870d,
  0x087d2087d0087cb087c7087c6087c4087c0087bd087bb087ba087b3087af087ab087a20879f0878d087820877f0877808776087740876e0876a08768,
  0x0883b088390883608831088270882308822088210881608815088110880f0880e0880d0880708805087fe087fb087f9087f7087f6087f2087ef087e0,
  0x0887e0887d088770887508872088700886b088680886308862088610885e0885d0885b088590885708853088520884d0884c08846088440884208840,
  0x088c3088c2088c1088bf088b7088b5088b4088b1088b0088ae088ab088a4088a20889e088990889708896088920888d0888b0888808882088810887f,
  0x089070890408902088fe088fd088fc088f9088f8088f5088f4088f3088f2088e8088e1088df088dd088dc088d9088d8088d5088d4088cf088c5088c4,
  0x08964089600895f0895e089560894d0894c0894408943089410893b08938089360892b0892a089250891e0891d0891c0891308912089100890c0890a,
  0x089a6089a10899a089980899708996089930898f0898b0898a08988089870898608983089810897f0897e0897708974089720896f0896d0896a08966,
  0x08a0808a0308a0208a00089f8089f4089e7089e6089e3089dd089dc089da089d2089c0089bf089bd089ba089b3089b2089af089ac089aa089a9089a7,
  0x08a3c08a3b08a3a08a3708a3608a3408a3308a3108a2d08a2a08a2508a2308a1f08a1d08a1b08a1808a1708a1608a1308a1208a1008a0e08a0c08a0a,
  0x08a7908a7308a7208a7108a7008a6e08a6d08a6c08a6b08a6908a6608a6308a6208a6008a5e08a5b08a5508a5408a5208a5108a5008a4808a4608a41,
  0x08aad08aac08aa808aa708aa608aa508aa408aa308aa108aa008a9e08a9a08a9808a9508a9308a9108a8d08a8c08a8908a8708a8508a8408a8208a7c,
  0x08ae408ae208ae108ae008adf08ade08adc08adb08ada08ad608ad208acf08acd08acc08acb08ac708ac408ac208abf08abe08abc08ab908ab208ab0,
  0x08b1908b1708b1608b1408b1008b0e08b0c08b0708b0408b0208b0108b0008afe08afa08af808af708af608af308af108aee08aed08aeb08ae708ae6,
  0x08b5f08b5c08b5b08b5a08b5808b5608b5308b4f08b4e08b4c08b4908b4108b3e08b3908b3308b2c08b2b08b2808b2608b2108b2008b1d08b1b08b1a,
  0x08c3a08c3708b9a08b9908b9608b9308b9208b9008b8e08b8c08b8a08b8308b8008b7f08b7d08b7708b7408b7208b7108b7008b6f08b6c08b6b08b66,
  0x08c8c08c8a08c8908c8508c8208c7c08c7a08c7908c7808c6c08c6b08c6a08c6208c6108c5a08c5508c5008c4e08c4c08c4a08c4808c4608c4108c3f,
  0x08cb708cb608cb408cb308cb208cb008caf08cae08cad08cac08cab08caa08ca908ca808ca708ca208ca108ca008c9e08c9d08c9808c9408c8e08c8d,
  0x08ce308ce208ce008cde08cdc08cdb08cda08cd308cd108cce08ccd08cca08cc808cc708cc408cc308cc208cc108cc008cbf08cbd08cbc08cbb08cb8,
  0x08d6408d1608d1408d1308d1208d1008d0f08d0d08d0b08d0a08d0808d0708d0508d0408cfd08cfc08cfb08cfa08cf408cf008ced08cea08ce608ce4,
  0x08dd608dcf08dcc08dcb08dc208dbe08dba08db308da808da308d9908d8a08d8508d8108d7708d7608d7408d7308d7108d7008d6d08d6b08d6708d66,
  0x08e3008e2a08e1f08e1e08e1d08e1008e0f08e0a08e0908e0808dff08dfc08df508df308def08deb08dea08de808de308de108ddf08ddd08ddb08dda,
  0x08e8708e8508e8408e8108e7c08e7608e7408e7208e6408e6308e6008e5f08e5908e5508e5008e4c08e4a08e4908e4808e4708e4408e4208e3508e34,
  0x08ed208ecf08ecd08ecc08ecb08eca08ec808ec608ec508ebe08eb108eb008eaf08eac08eab08eaa08ea108e9908e9408e9308e9108e8d08e8b08e8a,
  0x08f1f08f1d08f1c08f1b08f1908f1508f1408f1308f1208f0c08f0a08f0908f0508f0308efe08efd08efc08efb08ef808eeb08ee308ee208edf08edb,
  0x08f6308f6208f6108f5f08f5c08f5708f4e08f4d08f4c08f4908f4608f4508f4408f4208f3f08f3e08f3b08f3908f3808f3308f2f08f2a08f2908f26,
  0x08fd108fce08fc508fc408fc208fbf08fbc08fbb08fba08fb708fb208fb108fb008faf08fae08fad08fa808fa708fa308f9f08f9e08f9c08f9b08f64,
  0x0900d0900b090060900509003090010900008ffd08ffa08ff908ff808ff708ff408ff008fef08fed08feb08fea08fe908fe608fe508fe208fda08fd4,
  0x090360903509032090310902e09027090230902209021090200901f0901e0901d0901a09019090170901609015090140901309011090100900f0900e,
  0x0905c0905909058090560905509054090530905209051090500904f0904e0904d0904b0904a09049090470904509042090410903e0903c0903909038,
  0x090830908209081090800907f0907d0907c0907a09078090770907609075090720906f0906e0906d090690906809067090650906309061090600905e,
  0x090ed090e8090e4090e2090e1090de090db090ce090ca090c1090b8090b5090b1090af090aa090a8090a6090a3090910908f0908a090890908709084,
  0x091650916309162091580915609154091520914e0914d0914c0914b0914a0914909132091300912d0912709119091150911209102090fd090f7090f5,
  0x091b5091b4091af091ab091aa091a4091a20919c0919709192091900918d0918b09189091870918209178091770917509173091720916c0916a09169,
  0x091df091de091dd091dc091db091da091d8091d7091d6091d1091d0091cf091ce091cd091cc091cb091c9091c8091c7091c6091c1091c0091ba091b8,
  0x092340922c092290921e092150921409211092100920e0920d0920a09206091ff091fc091f6091f5091ee091ed091e7091e6091e5091e4091e3091e1,
  0x09271092670926609264092620925e0925b0925a092590925709251092500924e0924b09249092480924509244092400923f0923c0923a0923909237,
  0x092d5092d3092d2092d0092cf092b9092b7092ad092a70929c0929b0929a0929809296092950929309291092880928509283092800927e0927809277,
  0x0931d0931a0931909318093100930f0930609302092ff092fc092fb092fa092f9092f8092f3092f2092ed092ea092e9092e7092e4092e0092d9092d7,
  0x0935b0935709356093540934d0934b09348093440933b0933a09335093320932f0932e0932c0932b093280932609325093230932209321093200931e,
  0x093d0093c8093c6093c3093b9093b0093ae093ad093ac093a7093a40939a0939709396093940938c0937e0937c09375093700936e0936c093600935c,
  0x0943609435094310942b094210941a09419094180941409413094100940709403093f8093e8093e5093e4093e1093de093dd093d8093d7093d6093d1,
  0x09577094810947f0947e0947d0947c0947709475094700946a09462094600945e0945b0945a094530945209451094480944509444094410943a09438,
  0x095b2095ad095a8095a7095a5095a4095a3095a2095a0095990959809596095940959309592095910958f0958b0958a0958909587095830958209580,
  0x096320962f0962e0962a09628096210961c095e5095e2095e1095dc095d8095d6095d5095d4095cd095cc095ca095c7095c3095be095bc095bb095b9,
  0x09672096700966c0966a09666096650966409663096620965f0965e0965d0965c0965b096500964f0964d0964c0964b0964409642096400963f0963b,
  0x096a00969d0969c0969b09699096980969709695096940968f0968e0968d0968b0968a0968809686096850967d0967a0967809677096760967509673,
  0x096cc096cb096c9096c7096c6096c5096c4096c1096c0096bc096bb096b9096b8096b7096b6096b4096b2096b1096b0096af096aa096a8096a7096a3,
  0x0970809707097060970409700096fb096f9096f7096f6096f2096f0096eb096ea096e8096e3096e2096dc096db096d9096d6096d5096d1096ce096cd,
  0x0974409743097420973e0973d0973b09739097380973309732097300972a09727097240971e0971c097190971609713097110970f0970e0970d0970a,
  0x0977909774097710976d0976b097690976809766097640976209761097600975e0975c09759097560975509752097510974f0974d097490974809746,
  0x097cb097c8097c6097c3097b4097b3097ad097ab097a8097a6097a3097a00979c09798097900978f0978d0978b097860978509784097810977c0977a,
  0x0981809817098130981209811098100980f0980c098080980609805098030980209801097ff097fb097f6097f5097f3097f2097ee097ed097dc097d3,
  0x098650985e0985b098580985709855098540984f0984e0984d0984c0984b098460983d0983c0983b0983809837098340982d0982c09824098210981a,
  0x098ef098ee098ed098eb098e9098e2098df098dc098db098c6098c4098c3098b6098b1098af098aa098a8098740987309871098700986f0986b09867,
  0x0992e0992c09928099270992409921099200991e0991d09918099140991309912099100990c0990a099090990509903098fe098fd098fc098f4098f2,
  0x099b4099b3099ae099ad099ac099a8099a50999e0999909998099970999609957099550995209951099500994c0994b0994909945099420993e0993d,
  0x09a0509a01099ff099fb099f8099f2099f1099ee099ed099e2099df099dd099db099d8099d5099d2099d1099d0099c8099c6099c5099c4099c1099bc,
  0x09a6509a6409a6209a5f09a5b09a5a09a5709a5509a4e09a4d09a4509a4309a4209a4009a3e09a3709a3009a2b09a2809a1909a1309a1209a0f09a0e,
  0x09aeb09aea09ae609ae309ae209adf09ade09adc09ad909ad809ad409ad309ad109acf09ac409ac009abc09ab809ab009aad09aa809a6b09a6a09a69,
  0x09b3c09b3b09b3209b3109b2f09b2e09b2a09b2909b2809b2709b2509b2309b2209b1f09b1a09b1809b0609afb09af709af409af109aef09aee09aed,
  0x09b9709b9609b9309b9209b9109b8f09b8e09b8309b7509b7409b7209b6f09b5a09b5809b5409b5109b4f09b4e09b4d09b4509b4409b4309b4209b41,
  0x09be309be209be109bdb09bd609bd409bd209bd109bcf09bca09bc909bc609bc009bbb09bb909bb409bb109bae09bad09bab09baa09ba809ba009b9f,
  0x09c2d09c2509c2409c2109c1b09c1509c1409c1309c1209c1009c0d09c0c09c0a09c0909c0809c0609c0409c0009bf509bf209bf109bf009be809be4,
  0x09cf009cec09ceb09ce909ce709ce509c7809c7609c6709c6009c5a09c5709c5209c4809c4709c4609c3e09c3b09c3a09c3909c3209c3009c2f09c2e,
  0x09d4409d4109d3f09d3e09d3b09d2c09d2b09d2a09d2809d2609d2309d1f09d1b09d1509d1209d0e09d0909d0809d0709d0609d0309cf609cf409cf3,
  0x09dab09da909da409d9a09d8f09d8909d8709d7a09d7209d7009d6f09d6c09d6b09d6409d6109d6009d5e09d5d09d5c09d5909d5109d5009d4809d46,
  0x09e1b09e1a09e1909dfd09dfa09df909df809df209def09ded09de609dd909dd309dcf09dc609dc409dc209dc109dbb09dba09db809db409db209daf,
  0x09eb909eb809ead09eaa09ea909ea609ea509e9f09e9d09e9709e9509e9309e9209e9109e8c09e8b09e8809e8109e7f09e7d09e7909e7809e7509e1e,
  0x09eef09ee809ee509ee009ede09edd09edc09edb09ed909ed809ed409ed209ed109ed009ecf09ece09ecd09ecc09ec409ebf09ebe09ebc09ebb09eba,
  0x09f5f09f5409f5209f4f09f4e09f4b09f4a09f3e09f3b09f2c09f2109f2009f1509f1309f0e09f0809f0709efd09efc09efb09ef909ef709ef609ef4,
  0x0fa130fa120fa110fa100fa0f0fa0e0f9dc0f92909fa009f9d09f9c09f9509f8d09f7709f7609f7209f6c09f6a09f6709f6609f6309f6209f6109f60,
  0x0fa2b0fa2a0fa290fa280fa270fa260fa250fa240fa230fa220fa210fa200fa1f0fa1e0fa1d0fa1c0fa1b0fa1a0fa190fa180fa170fa160fa150fa14,
  0x0ff160ff150ff140ff130ff120ff110ff100ff0f0ff0e0ff0d0ff0c0ff0b0ff0a0ff090ff080ff070ff060ff050ff040ff030ff020ff010fa2d0fa2c,
  0x0ff2e0ff2d0ff2c0ff2b0ff2a0ff290ff280ff270ff260ff250ff240ff230ff220ff210ff200ff1f0ff1e0ff1d0ff1c0ff1b0ff1a0ff190ff180ff17,
  0x0ff460ff450ff440ff430ff420ff410ff400ff3f0ff3e0ff3d0ff3c0ff3b0ff3a0ff390ff380ff370ff360ff350ff340ff330ff320ff310ff300ff2f,
  0x0ff5e0ff5d0ff5c0ff5b0ff5a0ff590ff580ff570ff560ff550ff540ff530ff520ff510ff500ff4f0ff4e0ff4d0ff4c0ff4b0ff4a0ff490ff480ff47,
  0x0ffe50ffe40ffe30ffe20ffe10ffe0]

/-- `index_pointer_Shift_JIS_0` (lib/whatwg/encoding/indexes_pointer.cpp:106), 7326 entries. -/
def ptr0ShiftJIS : Table := ⟨20, 7326, ptr0ShiftJISData⟩

/-- Rows of `index_pointer_Shift_JIS_1`. -/
def ptr1ShiftJISData : Nat := pack 480 [
  0x01eb01ea01e901e801e701e601e501e401e301e201e101e001df01de01dd01dc01db01da01d901d801d701d6003f003e00b6000c003d004a000e0057,
  0x023602350234023a020d020c020b020a020902080207020602050204020302020201020001ff01fe01fd01fc01fb01fa01f901f801f701f601ed01ec,
  0x026402540253025202510250024f024e024d024c024b024a0249024802470246024502440243024202410240023f023e023d023c023b023902380237,
  0x0283028202810280027f027e027d027c027b027a0279027802770276027502740273027202710270026f026e026d026c026b02690268026702660265,
  0x048504840483048204810480047f047e047d047c00af04ab04a9004d0065004c004b00b00023002400b500b40028002700260025001c001d026a0284,
  0x00870021009904bf004600a400a204bb00780077009d008d009c008c008b008a006a00670069006821c321c221c121c021bf21be21bd21bc21bb21ba,
  0x046e046d046c046b046a04690468009b04c0009a007a0079007c007b00a100a000450044009e0041009f00a300a5004704ba00a700a6007d007e0088,
  0x029a02a302a802ad029802a1029602a2029702a00295029f0294029e0293029d0292047b047a0479047804770476047504740473047204710470046f,
  0x00490058005900bb005b005c005a005d005e0063006400610062005f006002a702b102ac029c02a602b002ab029b02a402ae02a9029902a502aa02af,
  0x011c011b011a04a804a7002c002b006b0066003a003900380037003600350034003300320031001a00190018001600020001000000b100b200b30048,
  0x013a0139013801370136013501340133013201310130012f012e012d012c012b012a0129012801270126012501240123012201210120011f011e011d,
  0x015801570156015501540153015201510150014f014e014d014c014b014a0149014801470146014501440143014201410140013f013e013d013c013b,
  0x017d017c017b017a0179017800150014000b000a016c016b016a0169016801670166016501640163016201610160015f015e015d015c015b015a0159,
  0x019b019a0199019801970196019501940193019201910190018f018e018d018c018b018a0189018801870186018501840183018201810180017f017e,
  0x01b901b801b701b601b501b401b301b201b101b001af01ae01ad01ac01ab01aa01a901a801a701a601a501a401a301a201a101a0019f019e019d019c,
  0x04ae04ad04ac04b304b204b100130012001b000501cd01cc01cb01ca01c901c801c701c601c501c401c301c201c101c001bf01be01bd01bc01bb01ba,
  0x04aa049c049d049904980497049b049a04b404b504b604a60490048f048a049504870496048e0494048c049204930489048b04880491048d04b004af,
  0x0a300c8b07361147080f11460cc11145205c0f2f10a30aec0f27078d121f0b65114406e905ee114310460ee306590aea099b0aeb0fc70a000cd505cd,
  0x0de809e111500c07104410a0114e114d076c06fe0df21077137b101208c107fa0652114c0aed114b1a980f7e08940dd80e0a078e0e08114a11491148,
  0x115d115f0b310a610b30115a1159115810a10d1b07b507b407b30fbd05c808c311570f7f11561155115405820940110d110e05c708af08b005fd1153,
  0x0744205f205e0df7116408620cc207d9065b116205ab10c60c62205d1163116100170ba80ee411600c3b09b009b10f16115b115c068d0930078f115e,
  0x065c0c4b102b09410a620d1c05ad116b0c7d0d0a065d09e209b220610b1010c70e6d11670e3f0d581188068e07900e630f09074508b105ac11652060,
  0x2065116f1176206620631173116e09e310c82064116d117506ff09b308c41170116c0f28065f117211741171131b1169097b116811661045116a2062,
  0x11800fbe0b1111790f4a117c117e117b0c2c1178117d117f117a20670a7a205506810c22082b0f45109c0b1208c50efd0fc4131c065e07b705ae07b6,
  0x086411860ca80f5c2069118a0a23206b118208c608c711840d74118f17480e2f08950bf111901187206a118d06530f5d11890ec50e23118e0a4b1181,
  0x076d119a080b0d1e0c230a0e206d119908650d1d11971198119411950f3d05af11961192206c1191206e2068086307fb1104118c10b61185118b1183,
  0x11a611a811a510a2207111a40f9807b80c1b0da411a111a007e411a3082c0aa40951119e11a2119f104a0952119c0ea8099c206f08590f80119d119b,
  0x088605d511b911b811b611b711b411b51002102c11b30aa511b2117711af11b011b10a3d11ac064c11ae11ad076e0f3511aa11ab207011a911a70bed,
  0x08060c330f2907bb11c110fe08c90e5d11c011bf0bd30df3207311bd06f00d7511bc11ba09e40d5d0ff111bb091d207208c80ba907b90cd60a63082e,
  0x0d7611d111d011cf0ee911cd0fe611cc11ce070020740a150aee11cb11ca11c90f8c11c819a311c7095311c5098a11c6061e0dd711c311c208660d4c,
  0x11df11de20760dd911dd0c790a8f0fa911db07da1e7e11da12220d7710a40cd711d90a8111d80b69207511d710c9101311d6097011d211d411d311d5,
  0x11e90d9511e811e7107f11e60f390e6e0a9010d8207711e4082d11e511e3070206fb0b9b0f1911e20b320d7811e10e520a7706390dc107bc11e006a9,
  0x0bee11f211f406df11fa0aef0f0a11f111f30e40096b086811ef09130f8111f011eb0bcf11ee11ed097c0c2411ec0d1f091e09b411ea0867098b0b6a,
  0x1203207a06aa120108cb120210ee10ca2127120011ff09140d6f0a9c207910d9066008ca207810b411f811f911fc11f7109211fb085306bf11f511f6,
  0x1011207c100708cc0a24120e120d120c120b08210704120807e512070b6b120a0f5412060aa6207b0fdc070312050da51d3612040f46102d0cf50fa1,
  0x0baa0a64121c0db405c607fd0eb3121b121a121912180e8c207e121707be0aa70bf8121609890f97065a12151213121412121210207d120f0f5e0dec,
  0x122706541228107807880c25207f074605d605eb1225122408280bab12230f990e410c8c0de307bd0c6b0c310e8d12210e6f122008b20aa8121d121e,
  0x0a6e0a460e700bef102e079109420fbf1231099d07a5123008882081122f122e061d05f80b42122c122d122b088708cd10b7122a2080101a122907bf,
  0x06c10780123b123a09b5091506eb05e509b60a010c630661123712390aa907c00c7b0c7c123807fc089608ce0bf00602123420820e710a9d0a3e0a31,
  0x0f5f10e7123d08b4123c12400f1a0b44079212421241123f123e073712430e8e0f9507f81244082208cf0d5e108008d00fe70da605e40d18077f0916,
  0x125e12552084124d1252124612481105097d208512531251124f0fe80897124e124b125012470fcc124a124c0a3f0a4712490dd21245091f08b30d21,
  0x12690d46126712680fb40aaa12631262126a05d812610955125a12541259125d0ed90586125f05d71260125606ac097612791258125c2086125b1257,
  0x1281127c126d1276127012731272082f100d126e0aab12710c6c126c0c40126b127412750aac102a126f058312650d7912640b13094305f320871266,
  0x1286128c12c01287128906030809128007c107810bf2128312850869127b127f06e0074707061277127e0cd8127a08d1128420880bd012821278127d,
  0x129f0748129c06f5129512940bd805fc129a1298129712990b01129d067b129205f20aad128f128d06620c8d129012911293128e128b09b71288128a,
  0x09b80a4511c412b312b212b112b012af12ad12aa12ac12ae12ab12a812a912a712a60e0c12a312a412a512a206c012a012a10e690dca0f1b129e129b,
  0x0caa0830096c059612c20d7112c112be12bf12bd061f086a12bc12bb12b912ba12b80f4d12b612b70920089812b50b4105b0093112b40c9f05d90690,
  0x208b12d312d206bb08d312d012cf083212ce12cb0b4512cd0d1312c90c8e208a093212cc208908d2094e12c812c50f8207e6097112c712c612c412c3,
  0x12de0c4112dd12da0c4c086b0da70fa4097807490e300a020b0212dc0ee505c90e0b12db12d712d912d80af00faf208c208d12d612d512ca12d112d4,
  0x12e80b3312e012e40d4d063512e209560d060e6a0d7b0d600d7a12e60bd912e3069110c20f2a12e709730d5f0af10f6006201e7a07070d2212e112df,
  0x12f912f612f712f5091712f312f40af206920ca012f20f36093312ef12ed12ea12f00f1c209112f112ec0f9a12eb20900cff0c1c0f5512e907c20a75,
  0x101413050c3c0a6f122606ab104313040663209213030f3e13021301130012ff12fd12fe0d140e3705ce0b7d12fc0bf30b3409b912f812fa12fb12ee,
  0x20952094131113120d7c130e0fa620930833130f0bf413100f610dd5074a0621130c130b05b1130a0a03063a130913080ee60c3d0d4e0c6413070fdd,
  0x0d610f830c422097131d131a13810fd8104c076f13220df80ffa0e8f0df4131908d413180d720a9e0f2013160c8013170aae1315063b209613131314,
  0x1328132a0fe513271329058405b309bc05da05890ec00fee1320070805f713211324132305b20b6c0899059a09ba09bb131f0aaf095720980fb0131e,
  0x1343086c13350a04133606641334133713330ec113320e310fe4132c13310ee713300934132d0e1f10ef132b0ab0132f132e08b50f4713250b141326,
  0x134c0c3509e52099134b08d5134a09bd13481347134913461345134206040d1513440af31341133f1340074b133e133d133b133a13380cbf1339133c,
  0x0cc3070a0a480d7d08d709fe07090bf605a30a3205e60c6d135713561355135313521351137813500c36134f06d3134e089a075f0ffb08d609c5134d,
  0x0701135e0ee8135c135b0fd20dc7074c135a0a2d209a0a70104d135906650ab1062206ad095807931358102f0a050bac07890a0b0f62077005990d23,
  0x13680a160bad0f040a400c4d09e60b6413660cd91367136510a5209d13640b1615d60dfe13601363135f13610666098c13620b15070b209c135d080c,
  0x137207de0df50ea90b370de90b0f0a25137113700a4907db136f1009136e136d209e0ab50bae136c0ab40ab30da8136b0b350c3705b4136a13690ab2,
  0x0bda209f06491380137f074d137e137d137c099e0dcb137a137910810bf70a110d620c2d0d4f1375081213761377137409be064d0dc40813137307a6,
  0x13910b55138c0a7b138d0d7e20a10f630f64138e1390138b068207c30db2138a1389138713881385138320a007381386138406d40c4f0fd11382073d,
  0x13a513a613a313a2094420a613a10b56139420a3139e1079139f139d13a020a50f6520a2139913951396139a139b139c139306ae1392139813970977,
  0x07a708d9094508d80c020a8b0a4a0baf13b413b313b113b220a913b0073913af13ab13ae10cb20a820a713ad13aa13a913a713a813ac138f0d7f13a4,
  0x13be13bd0cdb07590c500b8b09c00b460d2413bc13b913ba0cda13bb074e13b80e720eea09bf07e70c82070508da13b70e160fcf13b6089b094613b5,
  0x13cd074f1030104b088913cb070d08db13ca13c90e020f2c070c13c70f2b13c60e5913c513c30fb613c413c20fa513c80f0c13bf13c013c10f840af4,
  0x13d406c213d213d310f010dc13d10e2413d013cf104e08de0a9505a40d26089c094f0d7013ce0eeb08dd0d500f660d250a9f0ab70e900ab608dc0cdc,
  0x114213e80f2d13e510f113e40f480df013e30e090693086d13e20d27062313e113df13de13e013dd13dc13db13d513d913da0ab80ecf13d613d813d7,
  0x07c513ef205b13ee0ca10eba13ed07c40cde20ab0a2e13f213ec13eb089d088a101820aa0d280cab08df0f1313ea05db0cdd079413e90dea09f91152,
  0x083513fb13fc0b6d063c13fd0e91101b13fa13f906050ab913f80eda0cdf0ec6095920ac0eb6083413f713e613e713f613f513f40d8d13f313f113f0,
  0x07500ebb0b17076214080d4720ad0ce00db60eaa14070a820f0b140608b714051402140314040db50a650d6314000aa008b6108c13fe13ff14010c51,
  0x14110c5209c210cc141814130eec14190d731414141c141614100929140a140c0e03140d143e0694140b0cc420ae140e063d0f860f8509c114090df9,
  0x09350cac1428142606971412142220af141e142c0aa108e007c7142510dd1423142414271429141f141d141707c6141a0695141506240b6e141b0795,
  0x0e0d14370618070e103108b8143314311435143406961436142e0d29143820b10a0620b014321430142d1421083606e10c2607c8142a142b14200655,
  0x14490bfa20b5144e0c43099f142f0bf91439143b05b520b20b8c092a144220b3143c110a0dcc14400af5143f0d80143a100e1441143d140f0e92058e,
  0x1452145a145720b7145920b8145814531454144c20b4070f05870807144420b605b61450144f102410251445144b0a4c1448144d144a0a2f14471446,
  0x146a1463145d146605b71464109d146206af0838146507100fc81467146814611460145f0f5614690b18144308e10c53145509e71451145c145b1456,
  0x1476147714790936147b147a0711147c064e086e1474146e147308390da90f1d1470146b20b9146c146f147210de0c1d1471146d10321064145e0837,
  0x0b8d05a0148e20ba069906830b6f0a66148c148d0f57148b148a148914851488148614871483086f1478148214840ce1148014810698147f1475147d,
  0x149c1499149b0c6e0f140c441498095a0a330e931c620bb114970a910f87100a089e0c541496149514940771149314920bb01491085414901bac148f,
  0x0f6714fa0e9520bb0c6f0e6514b50b9f08e214a40d8114a714a314a210650e1714a00abb14a6149f07720aba14a1149e0e940eed05980f1e149d149a,
  0x0b0406e206c307a90e2514b00abc0b9c08e314a814a50c7007a814a9069a14ab0e4214b114b214b614af14b414ad0c8f14b30cc5063e14aa0fc00d2a,
  0x14c314c109960c270bfd14c00e850d2b0b190950058814ba07c907aa0ce214b705a514bc09c314bb09e814ac0a4d0918098d14be087014b914bd14b8,
  0x14c90c90095b109014cc06d8081414c40e2614ca14c50abd14cb0a410bfc14c60e040ddd0abe14c808710b5b14ce14cf0a170f680bfb0cf60f4e14bf,
  0x14d720bc0626075114d114d4058f0712104f103314d60d2c0ed014d514d314d80c3414d214d00bfe14cd0d08083a077c14c70bdb06250b4708e40b9d,
  0x14e909a014ec08550b630ff714e514e40fab14e320bd0d3d14e60b9e097e083b14de14da0d820e7314e114dd14c214e014d914dc14e20c3814db1050,
  0x098f14fb0d3e14f914f814ee14f314ae14ef20bf0bff14f114f014f4105114ed14f206c40f9b0bb2098e0e180efe14eb14ea0d480daa20be0e0514e8,
  0x0b700f6908e5069b150e150c150d150b150a09c414fd150914e71507150814df15051504150615020af61503150114fe14ff150014f514fc077314f6,
  0x09650edb0b8713540f25151a151915180eee0d3f0b7115170b57083c0dcd09a107131515151607ca15140e271511151207960ee120c015131510089f,
  0x075315250c2f15240bbc1521109e15231520152209c706360f6a151f0b1a09c60ca209ad151e0eef0b8e07e90597151d0a19151c10a60d640e740e96,
  0x20c6153320c20b8f05b809370fe90ac0152c20c40abf0938152d08e620c1152e063f152a05910a830c0009c807a30c910df107541529152815261527,
  0x153e153d1538153920ca20c9099a15340b1b1536153508e709e9153715510cc620c315311530153220570b6820c50ac1097f0fb10a7c20c706060b72,
  0x09ae10d60ce320ce154620cd154505a60ca30a9215421543154106681544154007dc0cad0ac20b7320cc153f083d0ef00e86153c153b069d20c8153a,
  0x205a20d10c010a981556155508e8060707df15541553155215500e4b1052154f0a93154e15490dd3154c154720d0154a154b1548154d0f8820cf0f58,
  0x0f9c0a34155d09900fa70fc10fcd1003155b155a075515590ce40f8910f215580cf80980155720d20f0d0f6b10340861119309540c550bdc0bdd1235,
  0x156a0e2808e9156d20d4106f1568156710060af715650c2815640d6515660af80a260c39096d05aa10820b5c15631560155e0797075215611562155f,
  0x15791573066a1575157708a0156b15700b581571110b09c906690fb210b80fb80b90156e156f15690eab15720e750ac3156c0e1a0786152f152b0d83,
  0x0fba094709810a0f10210cc71574157e157615781582157a157d157b157c10350d0c0a670bb807140f8a0e4315800eb115810f2e0c4520d720d5157f,
  0x07e2158a158805a7158520d90d84083e08581587095c06c5093906c60bb41589158c06ef158606f708ea1584081d0b750bb306080dbf0d0720d806bc,
  0x08b913060ac4159c15911595159608eb159405951592159f0e32159710a7159015a0158f0650159a0ebf158e09a20fbc0986158d0782071520d6081f,
  0x15ab15b115a715b40d860c8515a415b015ac15aa0f8b20da15a9075615a20ff2205815bb07570d85159d159906dc159b158b093a069e0d2d15931083,
  0x15ad0dc315c815b715b615a615b215b915a515ba087206ec15b80b5d15ae159e0d000b0515a80fe315a305b915af15a11113071615b30b7415b50b1c,
  0x15c206d510f315bc15bf15bd07e015c50e330a8415c307dd15c015cd20dc0ddf15c90de415ca15cb15be0bde15c70c4715c10f0510530d1115c615c4,
  0x105415d315d015d50c030d0108ec15d71e7b15da15d215d115d415d915e115ce15ec15cf15db15de15df0b1d20de15e010f415dd061c097406b015cc,
  0x087315f416010ff80ac515ed15e50ec70ccf15ef15f515f215f70ea615f115eb15e415e60c040d0915e815e915ee15f015e315ea20df15e215d80fb5,
  0x160316050ca406db20e415fa20e315f820e115fe15fc0dc0075815fd078307cb15ff15fb20e215f60c8906ed0a42160015f90ac620e015dc06da0640,
  0x1617107a1616161916150e5820e620e5161216100810161410e91611160b160c15f3160a160d160e1598160f161316071606160415831608160208ba,
  0x0b7609ca162b162a162916271628071816260c92066b162516231624071707eb07741621161e161f1066064107ea09ea085a161d05f4161b161a15e7,
  0x163c163a163b1639163816371636163516330b061634163209af0a350a850fa316301631162f162e09cb162d162c10d7095d09e011070f4f0eff092e,
  0x075b164a16490fda09cc1648164516461643164416420ffc0eac20e70e9716410dbc0fb30f591640163f075a12e50d59163e06c70991163d0ca50642,
  0x075c085b165907990c3e20eb1651165816500cae08ed164e0de720e906370719164f09f70e7707980a680d2e20e80e7606090ec80b48164c164d164b,
  0x07cc06271665165f0ac709ec166610260f15066c166416630fc20c710fa2165616540948064a0816165a165b16530dce0cf920ea1067165216551657,
  0x0dab107316710bb716741675105520ed060a165d0c561668166a0cc80d3c079a0e1b0f6d1662166720ec166916600f6c165e0e980e440bb51661165c,
  0x0b1e069f106820ef0ef106b810f508ef05f9167816760edc1679167b0bb60af910930e1c166f06e31670166d167216730a4e166e08ee060b0cfe166b,
  0x168f0d881691168c0a7120f2168a10b916841687168d106b10a816861683061406b120f10db70d8a10c320f0167d1677167c10370ac820ee167f167a,
  0x088b0a9416971681083f0a6916820ac9095e06e40b7720f50d51168e168020f3093b0f120a8620f40b1f1693168805dd1692168b168516900c931689,
  0x1036169920f70c940aca08a116a3169f0fd416a1169a20f916a220f616a708f0169616940c29169d065620f805f1059016a4169b0d6607ab16a016a6,
  0x0ff016b016b620fa16ae0d4516ac105616b116af16a916b505cf16b708f1109416aa0a87088c16b40e5f16a80fc90a071114169e16980d891695169c,
  0x0fca10df071a0e4c0c05062816c516b910f609260a080ec907b016a516bd16bc16c60d4016bf16c116bb0c570c6916b316b216ad06e516c309eb16ab,
  0x16d320fb16c70b6216d016ca16cb16d116c816c916ef0d1216cc0ce516cf16d60a8806de0bb916cd16d2085c071c16b816be16c40bd116c216c00d0b,
  0x20fd16ce16e30c7216e416e0107b167e0dfb091916de16e516e216df16e116dc0e0e16d50c76085616db20fc16d70d5a16dd16da16d816d9071b16d4,
  0x0d8b066d16f70ddc16f616ba16f416f516f30b6621000c6a0cd016f20dc916f016ed16ee16f10edd16e916eb16e716e620ff20fe16ea16ec16e81cec,
  0x210417050f6e16fb17001702170305e7170110da205605ba0d5716fd16fe16fa16ff0c9516fc210216f816f906290b4910ea2101095f0a27079b06a0,
  0x170a17120bbb0a1a170f0e820acd170b17080e34170c2105062b170e17090bba170d10e0210721060acb0bd20acc0fde17060f1f1707062a21031704,
  0x172012360b07171e171f09a30c06171d12961716062c171b171910ba171c171a0d8c0e062109171817170e01171517140a761e7f171310571710081a,
  0x0ce60e2a17310e780f3f1730172f172e09ed0bf5172d172c10150ef20a28172b172a172817290d1717271726172517240e4d1723210a172117111722,
  0x210c173c0afa173d210b0e790875173b173a0775173917381737173517360961173408740db817330b780f170f9d10f706510fdf0fef07a406841732,
  0x1751210d10a9174d174b0ffd1749174c174a0e3510f817460c87174707ce0dbd0a36174317451744092c0bdf07fe174208a21741173f1740173e07cd,
  0x07ff064307e1108d088d175c175d175a210f175b06c81759175717580a6a17561754175309cd0925062d175210391038174e174f08760e000cd11750,
  0x1095211510841767079c088e176a2116177f17640e7a0831176321130a3717652112211417600cfa09a42111175e066e176221101761175f10cd073a,
  0x094917741768177617731e7d1775211b10c1176f0b531772060c08bb1770176d1771176e176c0e1d0ead07ec10bb176b211a21182119211717690c73,
  0x178b211e178817890ee217851787178617841783178206fd17810eca178005fa177e177d177c09ee071d177b1766211d177a1779211c108517781777,
  0x1796179506850ce712110ca60b2008f2103a0d5b209b17940f5010581793063809a50b7917920d530b36071e179017910928178e178f178d178c178a,
  0x0de217a317a60afb05bc211f17a117a00e87179d179f08401091179e0ebc0e5c0b670cb7179a179c10960e7b0e5b05bb179706a1150f17981799179b,
  0x0ace0ed117b117af0a0917b317b50b2117b417b217b00e9917b6061517ad17ae17ac17ab17aa07760be00be10eb417a717a817a517a417a9075d17a2,
  0x17c917cd17cc17cb17ca17c817c617c517c717c017be17bd17bf17c20caf17c417c317c10c0817bb108617bc0d0417ba0d8e093c09ef17b917b717b8,
  0x212017e20ec30e4517e10d670e6017e017df17de17dd17dc17da17d917d817db17d717d617d417d50f371027073b17d217d117d310aa17d017ce17cf,
  0x17f10616060d0faa0e2917f0099917ef17ee17ed1e6417ec17eb0e9a212421222121212317ea17e917e717e8099417e617e517e408f306a20d4117e3,
  0x0fdb0b2218001803087a07200eae17fb17fc17fd0acf0a8917fa0c090cf70ffe100517f817f717f60e88071f17f50fea17f416200b7a0d8717f217f3,
  0x10ab0a7d0f3a181218131811180f1810180c180d180e180918080f9e180b0db90b4a180a1807180621260cc0073c0ce81805180417fe1802180117ff,
  0x18260962087718241823094a18220b9107cf18210c9608000e3d0ca918201019181f0fe0181e181d181c181b181718191818181a181618150dac1814,
  0x182d1115097905ef0e9b182906b2182e0d2f182b08bc182c212b182a0e54087808f41097212a0ad021291828090b0d6e0e1e0f6f078509630d6d2128,
  0x1843184118420be218400ad1183e183f05cc183b0fac183c183d183618330e891835183a1834183909f01837183806c91830183218310b9a0f38182f,
  0x184e184d0d8f09640ecb0ad20dfd184718490b230a72184a18480be3184b184c103b09ce075e0777082a18460a1b10ce09f1212c1844184518271825,
  0x0e9c18590ed206670a50185809cf0a4f0dba067007ee1857185618550dfc18541853185107b11850213221300f0e0d30066f184f0bd4110007ed1864,
  0x084106711866186805d118650a381862186310ac0cb0186118600eb20fd60b88185f0d31185e076005bd0ad3185b0cbc185a0b240e3c185d185c0be4,
  0x0c0a0cbd187309820ba10dc20bbd1872080a1871079d085d187006ca186e0afc186d186c186a058d0657060e0b92186b0f9f18690f53092108f51867,
  0x1888109a1887188618841885130d213318831882108e188118791880187c187d06f1187e05ed187b187a1059079e0819187808151876187418771875,
  0x18950d42189418930ad5188f189d1890079f1891189b188e072109fc0cb811be07ba188d0c97188c21360c832134188b0dad0a7e188a18890ad41d50,
  0x18a218a518a418a718a618a318a118b109830d910d920cb918990e66189c189e07ef0d900e570ebd189f09881898189618920c6518970ef30b3d06d9,
  0x0cb60f4018b80e8018b40ba20e5518b70e530bbe0c98072218aa213718a818ac18ad18b218a909a60fd00e4618af18b018ab18ae06720f3c189a18a0,
  0x18ce0ea718cc18cd18ca18c918c8072318cb18c518bc18c2123218bb18c618c118c018c418c718c310f918ba18bd18be0dbb0a0d18b918b618b518b3,
  0x0e070be50e47109818dd0fd90b4b0f2118dc081c07e3100b18db0f3318da18d918d718bf18d618d518d818d118d418d20b9318cf18d018d30f5a10e1,
  0x18f008f60c0b0f2218ef18ed0d9318ee0bd708a318eb18ec18ea0b7b18e918e818e418e518e618e718df18e118e30ad606fa18de18e018e205a10a74,
  0x09d209840f8d0be618f90f2307a009d108f80a1c18fa0a8a0ec20e0f100f18fb18f708f7101c18f8076107a1084218f609d018f518f418f318f210ad,
  0x190707a2190a059d107408f9213a190d1904085e19091905084318fd2139190218fc0be7088f0a511900093d0ad719010b2518ff096610c418fe0d16,
  0x213b19140d0f0fff08fa191e191a191205be0a43191719131919213c191d0c0d19100c300844190b190e190c190f08790ba506a3190319060d941908,
  0x062e192310e2192405bf0ff407240f41192119250d3219221920191b0bbf191f213d19450a9610b50c0c0e9d07f019150ff3059e19160c991911191c,
  0x0a5208450bc0193019350e7c0b941918193219381934193619331937192b0a730f700a6b1928192f1929192c0a130e4e192a192e1927192d19260de1,
  0x194e194c194d0d521951194b2050194a1949194409a71948194619421943193f081e0fc51940194119391931193c193a193e193d193b0bd50b08213e,
  0x19640e9e0e200a970e640cb10846096e1962196119631960195f195e195c195d195b195a195919581957213f1956195519540725195319521950194f,
  0x197919781977064405e819721975197419711970197307780bc10825196f2140196c196d196e196b0eaf196a105a196819691966106c19671965147e,
  0x1989198819871986100008fb19850c4e09f2198419820a1d198308fc10fa105b106a0fa81980197f0726073e197e197d197c0b4c197a197b0a531069,
  0x199e199c199b10fb199a19990b0919980ce919951996199710e3199419930c0e19920f26199119900b7c198f198d198e198b0c9a198c101609f3198a,
  0x19a719ab0c580e2b0c9b19a905c00e2c097505ca08fe08fd19a219a40f8e087b0e9f09d308a50727199f19a10eb90ad819a00e5a11010dee0e56199d,
  0x19b519b60cea0e110c8119b219b019b119af078a0b9519ac0fd711090b8907d109d40e1019b907d00dae19ae19ad19a605de08a60f7119a819a519aa,
  0x0eb70fb70ef519c519c9090019c119c019bf19c319c20c590bc20f0f0ceb19be19ba092719bb0a3919bd19bc19c8111608ff19b719b80ef40b3819b3,
  0x10bc19dc06860b2619db19da19d919d619d70c1e19d519d419d319d8064f19d119d00e1219cd19cf19d219ce19cc0bd619cb19ca0f8f19c619c719c4,
  0x19e9090119e80a550f000a7f0bc307350f4b19e7115119e60a1419e50ba619e414f707d219e319e219e119e019df05f019de19dd0cb209d50a5409f4,
  0x05d319fb19fa19f9062f0b0a19f810ae093e19f619f519f4072819f219f319f119ef19f019ed19ee0d3319ec0bc419ea08900e480c4619eb19f70e7d,
  0x1a031a021a041a0d1a0f06741a110ed30c5a10cf1a05063006fc06871a0007f108500f7206730b270e211a0119fe059306a419ff0a100ef619fd19fc,
  0x1a121a131a151a161a1b1a1c05d21a25058c1a1e1a1d1a1408471a101a0e06f806751a0a0ff921421a0b1a081a0c1a061a0706100dc60cd208010a2c,
  0x1a231a2d1a2207291a201a241a091a261a281a2e1a271a1f21441a29064b06761a2c1a2b21430c1009021a19060008480c0f1a1a1a171a180c780cbe,
  0x1a351a341a431a3921461a301a3c0eb808a706771a320f5b1a3b0d6809671a360ad906781a3307f2077d21450b5e1a381a401a2a10700e4f1a211a2f,
  0x0c111a4a1a4e05920d961a550f0106e60cd3108f105c21471a4f10751a461a411a5306f91a501a450e3e1a3e1a3f1a3105c11a3d0f731a371a3a0daf,
  0x1a54105d1a5f0cba1a5e1a570c121a5b1a560afd214806f21a4b1a611a580ed6100109f50a560ada1a481a4d0f071a521a49058b0dff1a511a4c1a44,
  0x1a6c0f300c1f05df1a670d0e1a621a6805f51a661a651a691a6a0fcb0f3b1a420a0c1a631a6b1a6410e40f7420541a5c1a591a600fd51a5d1a5a06b3,
  0x06311a7b1a771a821a781a761a7e0e491a741a811a801a7a214b0f020d9711121a6d1a47214a1a6e0f081a73214907d31a720a120adb1a6f0e8a1a70,
  0x1a911a8c0a9a1a7d0e7e1a8a0d981a891a8b1a881a871a85107c1a8311111a841a86214d0a991022101d08230b2809921a790bc51a751a7f1a7c0dda,
  0x059b0def1a9c0cc91a9b1a9a0808109f07ac11dc1a99078b08a81a971a961a9517f9107d1a931a94160916181a8e1a8f1a8d0be81a921a711a900c13,
  0x0e8b0ed71aae1aad0e6b1aaf1aac1ab006ba1aab06bd08490c9c1aa80a211aa61aa51aa31aa71aa41aaa1aa01a9f0e151a9e09a81a9d1aa21aa10680,
  0x0b0d1ace1ac81ac710fc0ba71abe1ac01abf1abd1ac21ac10fd31ac30cb31ab21ab81aba1abc1ab91ab41ab31ab60f751ab506881ab71abb0c7a1ab1,
  0x1aea1ad91ad61ade1adf1adc1ad81ad71ae0106d1add1ad51adb1ad21ad310421ad40e3b1ac60cec1ac91acc1ad01acb06791acf1ac41ac51acd1aca,
  0x166c09030a571af51af6085f1af41af21af11af01af31aa91aee1aef1aec1aed1aeb1ae41ae91ae521501ad11ae6077906a51ae81ae71ae21ae11ae3,
  0x1b081afe1b071b040c321b051b090c5b08291b031afc07f31afd1b000cca1aff1b020b4d1afb0ecc05c21afa09041af90adc06111af806b40a781af7,
  0x1b14106e21511b170add1b191b181088094d1b130f511b121b11103c1b1010870c141b0f1b0e10db09681b0c05a21b0108a41b0d1b0b1b060ea01b0a,
  0x1b2d1b2a07f41b2b06451d181b281b241b1e1b231b251b271b261b221b211b201b1f1b2920511b1d0f7606e71b1b1b1c0f101b1a1b150b610b7e1b16,
  0x1b3e1b3d1b3c0b291b3a107e1b3b1b3906cb1b380e1409d61b370763087c1b361b350e190f111b34105e0b7f1b331b321b310a581b301b2e1b2f1b2c,
  0x0ade1b4e1b4d07640c741b4a082421521b4b0d991b4c0b39084a1b490d3408911b481b471b460b0b068f1b451b441b4306cc1b421b411b401b3f072a,
  0x1b571b58111009d809d9084b1b59061209d71b520ecd0ae01b530c3f094b1b551b541b510adf0ccb0b2a21531b500be9101e07ad0ba00f771b4f0860,
  0x0dbe0ba31b5d21551b611b6008be1b631b5e0b8008bd1b62103d0c9d0b811b5f0dfa09da104708a91b5a1b5c1b5b1b5621540ae106b5110607840bc6,
  0x1b6c09db10281b681b6a0d351b6b1b6f1b761b6e21571b710cee1b721b67110310af0b3e1b65072b0b820ca71b641b660ced2156077a0ea1067a0c8a,
  0x1b7f07f51b7b0ec41b7e1b801b7d105f1b7a0a1e09051b75087d1b791b771b6d1b780ddb1b731b740d9a05c306190f900c7708920a9b1b7021591b69,
  0x1b920a591b911b90151b09a91b8f215b1b8e08bf1b8d0afe1976077b1b8c1b8b1b89084c1b8a0ef71b871b8809fa1b86215a1b831b841b821b851b81,
  0x0f911ba61ba41ba51ba31baa1ba20ece1ba11ba0114f091a1b9f0ae20dcf1b9e1b9d1b9c1b9b0f781b9a0d9b1b981b991b970c861b961b951b941b93,
  0x06890f921baf0d540ea20c5c0e361bb307651bb11bb0100c0cd41bb21bad0b96072c1bae0e7f067c0ede0906096f0ef80d2006a81bab1ba91ba81ba7,
  0x1bbd1bbc1bb909071bbb1bba215d215c0d690a0a0ef91bb61bb7087e0e380ae309dd09aa1bb80edf0ded0bc71bc50c2e1bb409dc11080cfb10eb1bb5,
  0x1bd00c2a0b590a3a1bcd061a0cef1bcc0766215f0efa1bcb1bca0c151bc906cd1bc80a180b971bc71bc61bc4215e1bc21bc01bc1073f1bbe0c201bbf,
  0x1be51bf01be21be01bdf1be10d9c10601bdd1bdc1bde1bdb0bc80cf010ec1bd81bd708aa1bda0b981bd907ae1bd51bd21bd31bd11bd41bd61bce1bcf,
  0x1bfe1bfc1bfd101f1bfa1bfb1bf71bf81bf91bf61bf51bf30a5a1bf41bee1bf11bef0b991bed1bf21beb1bea1be71be91bec1be80d361be31be41be6,
  0x1c1106ce1c0f084d1c0c1c0d09fd1c0e1c0b0d550de51c0a087f2161082607671c090a1f1c081c041c071c061c051c0308021c020b2b1c001c011bff,
  0x1c240d491c211c221c231c1e06e81c1f10481c201c1c1c1d10291c1b0a5b10bd0e2d1c1a1c1707681c161c181c141c120f521c151c131c191c100969,
  0x07f608510b3a0fc305e90c84092d0d0d0f421c2f0e130b0e0c7f1c2e19471c2d11fd11fe1c2c1c2b09f61c2a0b2c1c291c281c270818091b1c261c25,
  0x0d6a0d371c3a0cbb0d9e1c4a1c3d1c40078c1c370d9d0c160c5d0d021c391c381c450feb1c360a791c340d4a0e4a1c330deb067d1c311c321c300f43,
  0x0f4405fe103e1c4b080d0cb40b4e0dd01c4c0ebe1c4405d01c421c430b2d0a5c0c5e1c4110e5058a1c3c0c210c2b1c3e0b830d050e3a0b431c3f1c3b,
  0x10b005c50bc90bca1c520a8c1c541c510a200c170d431c502164106108800beb06321c4f0c3a1e7c1c4e1c4d05c40c7e0db01c491c481c471c46067e,
  0x06cf0f031c611c60082721651c6310fd090805cb0d381c5f1c5e1c5d0a221c5c0f790dd6103f1c5b1c591c5a1c35072d187f1c551c571c580ea31c56,
  0x09091c6f1c700a5e10761c6e1c6d1c6c0b401c6b1c6a0b4f0a3b0ccc0e2e0a290a5d1c690dc81c671c680d3921681c6621671c651c640d6b07d41040,
  0x10170a6c10891c7e1c7d0a2a09600e811c7c1c7b1c7a0aff1c781c791c761c751c770ae41c740a600e610b8408c00c661c711c720a8d1c7309ab0922,
  0x1c8c217106be0dd4217221701c881c841c861c85216d216c08110fa0216f216e0d191c821c81216b0b2e06f31c8321690d3a216a1c8007f71c7f10b1,
  0x090a217a0ae51c910e5e1c8d06331c9b21771c8e21781c9621761c951c901c921c8f0d4b21741c9421752173217908ab10d01c8a1cd21c871c8b1c89,
  0x1c9f217e0aa221842180217f218321850f7a21811c9c1c9d1c9e0bcb217b1c971c9a0cf10fec1c981c931c990bcc20530db10a6d07f90f93217d217c,
  0x09851ca310e60a2b0ed407e821861ca71ca521870b00218a218c1ca61ca40b510b501ca00997218d218b090c21881ca1205907af0ccd0ed506130f4c,
  0x0cfc1cb21cb106b621900d030c18094c1cb306f40ae61cad0881218e1cae08201cac1cab0c9e218f1caf0d100d6c0dde20521ca21caa1ca81ca91102,
  0x1cc51cc721941cc61cc81cbf0d9f0ae71cc01cc11cc41cc31cc221931cb71cb81cbe07d521921cbb1cb91cb61cb50d441cbc1cbd21911cba1cb41cb0,
  0x1cde0f311cdd0bcd1cdc10100cf21cda1cdb1cd91cd61cd81cd51cd41cd31cd11ccf1cce1cd01ccd1cd710231ccb072e219621951ccc1cca1cc90c75,
  0x1cf21cf01cf11cee1cef1ceb05a81ced1cea1ce71ce81ce9061b1ce61ce41ce50e67090d06d007311ce31ce21ce11ce01cdf072f2197073005fb06a6,
  0x0aa30b3b05e01d031d011d021d000f3208931cfd090e1cfc1cfe0efc1cfb0c4805850bea0f941cfa1cf909721cf81cf70efb1cf51cf61cf41cf30da3,
  0x05e2219a0ae8096a08571d081d0a1d0906d10b5206a71d0719b40c5f081b1099080e10620882108b1cff0da010b20cfd1d0505e11d060e391d040732,
  0x12331ada1d1b09931d141d1709de1d151d1608ac0a5f068a104107400b600e6c0b8a1d131d1210d11d111d101d0e1d0d1d0f219b1d0b1c531d0c10be,
  0x0fe11d26067f0c191d251d241d201d221d231d211d1a10d31d1f0b2f1d1e1d1d0a440d5c1d1c107210d205ff0f2409ff0ba405ea0de6108a1d190b5a,
  0x1d351d341d330ff51e4e1d320ea41d310b86102021a20b8521a121a0219f1d301d2e1d2d1d2c219e1d2f1d2b1d2a219d1d29155c219c10ed1d281d27,
  0x1d4b1d4a1d491d481d471d460f491b7c1d431d441d45077e1d420ae91d411d4005a91d3f1d3e1d3a06ee1d3c1d3b1d3d1d3908171d380b3c1d3706d2,
  0x060f0da10f961d561d57084e10b30b5f0dd10e83074110491d531d540b3f0a8e090f092f0cf30f3407d605e31d511d5206581d4f0df61d4d1d4c0733,
  0x1d661d651d641d630f061d611d621d601d5f1d5e1d5d08ad21a410c50d56074321a3088307421d5b06d706d60c671d5c1d5a1d5910710ee01d551d58,
  0x1d751d731d721d701d6f068b1d6e09ac060110631d6d10081d6c0b030f7b09df059c05dc0e84162212091d6b1d6a07690b0c19810ea51d691d671d68,
  0x0de00cb51d871d860e2206b91d8521a909101d841d830a3c07d71d821d801d7f1d7d1d811d7e1d7b1d7c1d7a1d791d781d771d76073421a71d741d71,
  0x0c4a1d9808840c1a1d95076a1d961d940a801d921d931d911d901d8f1d8e1d971d891d8b1d8a1d8c068c08051d8d0cce0804080306170c490e501d88,
  0x1db01daf0b541dae1dad06b71dac1dab092b1da91daa1da81da61da71da51da41da207d81da31da021aa1da11d9b1d9e1d9c1d9d1d9f1d9a0da21d99,
  0x1dc91dc81dc71dc61dc51dc41dc31dc21dc11dc01dbf1dbe1dbd1dbb1dbc1db81dba0eb51db90e621db71db61db51db41db321ac21ab09111db21db1,
  0x1dd91dd81dd50f181dd721af059f1dd621ad1dd421ae10e807b21dd30fad1dd21dcf1dd11dd00fce1dcd1dce093f069c076b18f11dcc161c1dcb1dca,
  0x05941deb1dec1ded08521de71de51de61de90c6109951de81de41de31de21ddf08c21de11dde21b11de01ddd21b00bce098709980fb91ddc1ddb1dda,
  0x0fbb0c881dfe1e001e0105f61dea06ea1dff1dfd05d41df80ed81dfa1dfb1dfc1df91dee1def1df11df5110f06dd1df21df61df01df41df31df721b2,
  0x09fb1e0f06f61e101e121e1306341e151e1606471e0a1e0b0db31e0e1e0d0dc50fed0f7c1e091e081e0c0e681e070cf41e061e051e041e031e0210bf,
  0x1e251e2a1e291e28084f1e231e241e271e2221b31e260f7d21b41e1e0fe209231e1d1e1c05ec1e211e1f1e201e1b1e1a1e141e171e181e1909120646,
  0x09f81e401e3f08851e3e1e3d1e3c1e3b21b61e3a097a0c681e36110c1e391e381e371e341e351e321e311e2c1e331e2d1e2e1e301e2f0d1a1e2b1e11,
  0x21b71e521e511e5007871e4f06480fc6164713cc0fae0ff6091c1e4b1e4d1e4c1e4a0e511e4910c01e4810d41e4610ff1e451e471e441e431e421e41,
  0x1e691e680eb01e671e660bec1e6508ae0d3b1e631e621e611e601e5f1e5e1e5d1e5c1e5b1e5a1e591e581e571e551e561e540c60100417551e530924,
  0x20db20cb20a4208f208e2083219820d31e79186f1e781e77109b1e741e761e751e721e731e711e701e6c10d51e6f1e6e1e6d1e6b1e6a1d4e1bc31852,
  0x004f005321c7000921b521a821a621a521992189218221662163216221602158214f214e214c2141213821352131212f212e212d2125210e210820dd,
  0x00dd00dc005600080043004000420007000600d400d300d200d100d000cf00ce00cd00cc00cb001e0004003c0003003b0055002a002921c600540052,
  0x000d0011000f002e001f002d00f500f400f300f200f100f000ef00ee00ed00ec00eb00ea00e900e800e700e600e500e400e300e200e100e000df00de,
  0x002000300022002f011501140113011201110110010f010e010d010c010b010a010901080107010601050104010301020101010000ff00fe00fd00fc,
  0x004e21c50010008900510050]

/-- `index_pointer_Shift_JIS_1` (lib/whatwg/encoding/indexes_pointer.cpp:107), 7326 entries. -/
def ptr1ShiftJIS : Table := ⟨16, 7326, ptr1ShiftJISData⟩

end Verif.Model.Tables
