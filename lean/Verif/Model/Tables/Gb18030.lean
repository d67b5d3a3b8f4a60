import Verif.Model.Table
/-
Index tables of gb18030.
Transcribed by a script; see Verif.Model.Table for the packing.
-/
namespace Verif.Model.Tables
open Verif.Model.Table

set_option maxRecDepth 100000

/-- Rows of `index_code_point_gb18030`. -/
def cpGb18030Data : Nat := pack 480 [
  0x04e4404e4204e4104e4004e3c04e3704e3504e3304e3104e2f04e2e04e2904e2604e2304e2104e2004e1f04e1704e1204e0f04e0604e0504e0404e02,
  0x04e7704e7604e7504e7404e7204e6f04e6e04e6d04e6c04e6b04e6a04e6804e6704e6504e6404e6304e6204e5b04e5a04e5704e5504e5104e4a04e46,
  0x04eaa04ea304e9e04e9d04e9c04e9904e9704e9604e9004e8a04e8704e8504e8404e8304e8204e8104e8004e7f04e7d04e7c04e7b04e7a04e7904e78,
  0x04ee904ee704ee604ee204ee004edc04edb04eda04ed204ed004ecf04ecc04ec804ebe04ebd04ebc04eb904eb804eb704eb604eb404eb104eb004eaf,
  0x04f1504f1404f1304f1204f0c04f0b04f0804f0704f0604f0504f0404f0304f0204f0004efe04efc04efa04ef904ef804ef404ef104eef04eee04eed,
  0x04f4704f4504f4404f4204f4104f4004f3f04f3e04f3b04f3904f3704f3504f3304f3104f2e04f2d04f2c04f2904f2804f2304f2104f1d04f1c04f16,
  0x04f7d04f7a04f7904f7804f7704f7504f7204f7104f6e04f6d04f6b04f6a04f6804f6604f6204f6104f5604f5404f5204f4c04f4b04f4a04f4904f48,
  0x04fab04fa404fa204fa104f9f04f9e04f9c04f9a04f9904f9804f9604f9504f9304f9204f9004f8e04f8c04f8a04f8704f8604f8504f8204f8104f80,
  0x04fcc04fcb04fc904fc804fc704fc604fc204fc104fc004fbe04fbd04fbc04fbb04fba04fb904fb804fb704fb604fb404fb304fb204fb104fb004fad,
  0x04ffc04ffb04ff904ff704ff604ff504ff404ff204ff004fec04feb04fe704fe504fe404fe204fe004fdb04fd904fd604fd504fd404fd304fd204fcd,
  0x0501e0501d0501b0501705016050150501305011050100500e0500b0500a0500905008050070500605005050040500305002050010500004fff04ffd,
  0x050440504205041050400503f0503d0503b050390503805037050360503505034050330503205031050300502f0502b0502705024050230502205020,
  0x05064050630506205061050600505f0505e0505d0505b0505905058050570505605054050530505205051050500504d0504b0504a050490504605045,
  0x050840508305082050810507d0507c0507a05079050780507505074050730507205071050700506f0506e0506d0506b0506a05069050680506705066,
  0x0509f0509e0509d0509c0509b0509a050990509805097050960509505094050930509205091050900508f0508e0508c0508b0508a050890508705086,
  0x050c0050bf050be050bd050bc050b9050b8050b7050b6050b5050b4050b3050b1050b0050af050ae050ad050ab050aa050a6050a4050a2050a1050a0,
  0x050db050d9050d8050d7050d5050d4050d3050d2050d1050d0050ce050cd050cc050cb050ca050c9050c8050c7050c6050c5050c4050c3050c2050c1,
  0x050fa050f9050f8050f7050f6050f4050f2050f1050f0050ef050eb050ea050e9050e8050e5050e4050e3050e2050e1050e0050df050de050dd050dc,
  0x051170511605115051140511305111051100510f0510e0510d0510c0510a0510905108051050510405103051020510105100050ff050fe050fd050fc,
  0x051300512f0512e0512d0512c0512b0512a0512905128051270512605125051240512305122051200511f0511e0511d0511c0511b0511a0511905118,
  0x051570515305152051500514f0514e0514c0514a05147051420513e0513d0513c0513b0513a051390513805137051360513505134051330513205131,
  0x0518a051870518605184051830517f0517e0517a051720516f0516a051690516705166051640516305161051600515f0515e0515d0515b0515905158,
  0x051b9051b8051b4051ae051ad051aa051a9051a8051a7051a6051a3051a10519f0519e0519d0519a05198051940519305191051900518f0518e0518b,
  0x051df051de051dc051da051d9051d8051d7051d6051d5051d4051d3051d2051d0051ce051cd051ca051c8051c5051c3051c2051c1051bf051be051ba,
  0x0521405213052100520f0520c0520b052090520505204051fe051f7051f4051f2051f1051ee051ec051ea051e9051e8051e7051e6051e5051e3051e2,
  0x05248052470524605245052440523e0523c052350523405232052310522f0522c0522a0522705226052250522305222052210521f0521e0521c05215,
  0x0526e0526d0526c0526b0526805266052640526305262052600525f0525d0525b0525a0525905258052570525505253052520524f0524e0524b05249,
  0x0528d0528c0528b0528a052890528705286052850528405283052800527e0527c0527b0527a052790527805277052760527505274052730527105270,
  0x052b8052b7052b6052b5052b4052b0052af052ae052a7052a6052a5052a40529c0529a05299052980529705296052950529405292052910528f0528e,
  0x052da052d9052d7052d5052d4052d3052d1052cf052ce052cd052cc052ca052c8052c6052c5052c4052c2052c1052c0052bd052bc052bb052ba052b9,
  0x052f5052f4052f3052f2052f1052ef052ee052ed052ec052eb052ea052e9052e8052e7052e6052e5052e3052e2052e1052e0052de052dd052dc052db,
  0x0531e0531c0531b05318053140531305312053110530e0530c0530b0530a053090530705304053030530205301052fd052fc052fb052f8052f7052f6,
  0x05342053400533d0533c0533805337053360533505334053330533205331053300532f0532d0532c0532b0532905328053270532505324053220531f,
  0x053800537e0537d0537c0537b0537905376053720536d0536c0536a05368053650535d0535b053590535805354053500534d0534c0534b0534605344,
  0x053ab053aa053a7053a4053a1053a00539e0539c0539b05399053970539605394053930539205391053900538f0538e0538a05388053870538305381,
  0x053cf053ce053c7053c6053c5053c4053c3053c0053be053bd053bc053ba053b9053b8053b7053b5053b4053b3053b2053b1053b0053af053ad053ac,
  0x0541a0541905418054140540b05407054050540205400053ff053fe053fa053f4053e7053e2053e1053de053dd053dc053da053d5053d3053d2053d0,
  0x0545a054510544f0544e0544d0544c0544905447054450544405442054410543f0543d0543a054370543605433054300542a0542505424054220541c,
  0x0548505483054810547f0547e0547a0547905474054700546f0546e0546d0546c0546b0546a0546905467054650546305461054600545f0545e0545d,
  0x054ba054b9054b7054b6054b5054b2054b0054ae054a5054a2054a1054a00549f0549e0549c054980549705493054910548d0548a054890548805487,
  0x054f8054f7054f6054f5054f4054f1054f0054ef054ec054eb054e4054e3054e2054e1054e0054db054d8054d6054cb054ca054c5054c3054be054bc,
  0x0551d0551c0551a055190551805517055160551505513055120550e0550d0550c0550b0550a055080550505504055030550205500054fe054fb054f9,
  0x0554b05548055470554505542055400553d0553b0553a0553905538055360553505534055320552d0552b05529055280552605525055210551f0551e,
  0x055700556f0556b05569055680556305562055600555f0555e0555d0555b0555a055590555805557055540555305552055510554f0554e0554d0554c,
  0x055a1055a00559e0559b0559a0559705596055950559305592055900558e0558d0558c05586055850557f0557d0557a0557905574055730557205571,
  0x055c2055c1055c0055bf055bc055ba055b8055b6055b4055b2055b0055af055ae055ad055ac055ab055aa055a9055a8055a6055a5055a4055a3055a2,
  0x055f1055f0055ee055ed055e9055e7055e2055e0055de055db055da055d9055d8055d7055d5055d0055cf055ce055cb055ca055c8055c7055c6055c3,
  0x056160561505614056130561205611056100560d0560b0560a056070560605605056040560305602055ff055fc055fb055fa055f9055f8055f6055f4,
  0x0563d0563c0563a05638056370563505633056300562f0562e0562b0562a056290562805626056250562205621056200561d0561c0561a0561905617,
  0x0565e0565d0565b0565a0565605655056530565205651056500564f0564b0564a056490564805647056460564505644056430564205641056400563e,
  0x05681056800567f0567e0567d0567a05679056780567705675056740567305672056700566f0566e0566d0566705666056650566305661056600565f,
  0x0569e0569d0569c0569b0569a0569905698056970569605695056940569205691056900568d0568c0568b0568a056890568805687056840568305682,
  0x056b9056b8056b6056b5056b4056b3056b2056b1056b0056ae056ad056ac056ab056aa056a9056a8056a7056a6056a5056a4056a2056a1056a00569f,
  0x056d3056d2056d1056d0056cf056ce056cd056cc056cb056c9056c8056c7056c6056c5056c4056c3056c2056c1056c0056bf056be056bd056bb056ba,
  0x0570105700056fc056fb056f8056f7056f6056f3056f2056ef056ee056ec056ea056e9056e8056e7056e6056e5056e3056dc056d9056d8056d6056d5,
  0x05721057200571e0571d0571b0571a057190571805717057160571505714057130571205711057100570f0570e0570d0570c0570b057070570505702,
  0x0574b057490574805746057450574405743057410573f0573d0573c057380573705736057350573405732057310572b0572705726057250572405722,
  0x0577f0577e0577d0577a057790577805775057740577205771057700576e0576c0576705765057630576205759057580575605755057540575305752,
  0x057a8057a50579f0579e0579d0579c0579a05799057980579705796057950579405791057900578f0578e0578d0578a0578905788057870578105780,
  0x057c9057c8057c7057c6057c5057c4057c1057c0057bf057be057bd057bc057bb057ba057b9057b7057b6057b5057b3057b1057b0057af057ac057aa,
  0x057f0057ee057ec057eb057ea057e9057e8057e7057e6057e5057e3057e2057e1057de057dc057db057d7057d6057d3057d1057d0057cd057cc057ca,
  0x058140581305812058100580f0580e0580c0580a058090580805805058040580305801057ff057fe057fc057fb057f7057f6057f5057f3057f2057f1,
  0x058340583305832058310582f0582e0582d0582c0582b058290582805827058260582505823058220581f0581d0581c0581b0581a058180581705816,
  0x058500584f0584e0584b0584a0584905848058470584605845058430584205841058400583f0583e0583d0583c0583b0583a05839058380583705836,
  0x0586f0586e0586d0586a0586905868058670586605864058630586205861058600585f0585d0585c0585b0585a058590585705856058550585305852,
  0x0588d0588c0588b0588a05888058870588605884058820587f0587d0587c0587b0587a05879058780587705876058750587405873058720587105870,
  0x058ad058ac058ab058aa058a7058a6058a5058a4058a3058a2058a1058a00589d0589c0589b058980589705896058950589405891058900588f0588e,
  0x058c8058c7058c6058c4058c3058c2058c0058bf058be058bd058bb058ba058b9058b8058b7058b6058b5058b4058b3058b2058b1058b0058af058ae,
  0x058e2058e1058e0058df058de058dd058dc058db058da058d9058d8058d7058d6058d4058d3058d2058d0058cf058ce058cd058cc058cb058ca058c9,
  0x059030590105900058ff058fe058fd058fc058fb058fa058f8058f7058f5058f4058f2058f1058ef058ed058ea058e9058e8058e7058e6058e5058e3,
  0x0592c0592805926059230592205921059200591e0591d0591b0591805917059130591205911059100590e0590c0590b0590a05909059080590605905,
  0x0595e0595d0595c0595b059590595305952059500594d0594c0594a059460594505943059400593f0593e0593d0593b0593605935059330593205930,
  0x0597f0597e0597c0597b0597a05977059750597205971059700596f0596e0596d0596c0596b0596a059690596805967059660596405963059610595f,
  0x059ad059ac059a7059a6059a2059a1059a00599f0599d0599c0599b0599a05998059950599405991059900598f0598e0598c0598b059890598505980,
  0x059ce059cd059cc059c9059c8059c7059c5059c4059c3059c2059c1059c0059bf059bd059bc059ba059b8059b7059b6059b5059b4059b3059b1059b0,
  0x059f4059f3059f2059f1059f0059ef059ee059ed059eb059ea059e9059e7059e6059e4059e2059e1059e0059df059de059db059d9059d6059d5059cf,
  0x05a1b05a1a05a1905a1705a1605a1505a1405a1205a1005a0f05a0e05a0d05a0b05a0a05a0205a00059fe059fd059fc059fa059f8059f7059f6059f5,
  0x05a3e05a3d05a3b05a3a05a3905a3805a3705a3505a3305a3005a2f05a2e05a2d05a2c05a2b05a2a05a2805a2705a2605a2405a2205a2105a1e05a1d,
  0x05a5c05a5b05a5905a5805a5705a5605a5405a5305a5205a5105a5005a4f05a4e05a4d05a4c05a4b05a4805a4705a4505a4405a4305a4205a4105a3f,
  0x05a7c05a7b05a7905a7805a7305a7205a7105a7005a6f05a6e05a6d05a6c05a6b05a6905a6805a6605a6505a6405a6305a6105a6005a5f05a5e05a5d,
  0x05a9605a9505a9405a9305a9105a9005a8f05a8e05a8d05a8c05a8b05a8a05a8905a8805a8705a8605a8505a8405a8305a8205a8105a8005a7e05a7d,
  0x05ab105ab005aaf05aae05aad05aac05aab05aa905aa805aa705aa605aa505aa405aa305aa205aa105aa005a9f05a9e05a9d05a9c05a9905a9805a97,
  0x05ad305ad105ad005acf05ace05acd05acb05aca05ac805ac705ac605ac505ac405ac305ac005abf05abd05abc05abb05aba05ab905ab705ab605ab4,
  0x05af605af505af405af305af205af005aef05aee05aed05aec05aea05ae805ae705ae505ae405ae205adf05ade05add05adb05ada05ad905ad705ad5,
  0x05b0f05b0e05b0d05b0c05b0b05b0a05b0805b0705b0605b0505b0405b0305b0205b0105b0005aff05afe05afd05afc05afb05afa05af905af805af7,
  0x05b2905b2805b2705b2605b2505b2405b2305b2205b2105b2005b1f05b1e05b1d05b1c05b1b05b1a05b1905b1805b1505b1405b1305b1205b1105b10,
  0x05b4505b4405b4305b4205b4105b3f05b3e05b3d05b3c05b3b05b3a05b3905b3805b3605b3505b3305b3105b3005b2f05b2e05b2d05b2c05b2b05b2a,
  0x05b7605b7405b7205b6f05b6e05b6d05b6b05b6805b6705b6105b6005b5e05b5605b5205b4f05b4e05b4d05b4c05b4b05b4a05b4905b4805b4705b46,
  0x05bae05bad05bac05ba905ba805ba705b9f05b9605b9405b9205b9105b9005b8e05b8d05b8a05b8605b8205b7f05b7e05b7c05b7b05b7905b7805b77,
  0x05bd905bd805bd705bd605bd505bd405bd105bcf05bce05bcd05bcb05bca05bc905bc805bc305bc105bc005bbc05bbb05bba05bb705bb205bb105baf,
  0x05c0005bfe05bfd05bf705bf605bf505bf405bf305bf205bf105bef05bed05bec05beb05bea05be905be705be605be305be205be005bdc05bdb05bda,
  0x05c2a05c2905c2805c2605c2305c2105c2005c1f05c1e05c1b05c1905c1705c1305c1205c1005c0e05c0d05c0c05c0b05c0805c0705c0505c0305c02,
  0x05c5b05c5a05c5805c5705c5605c5405c5305c5205c4d05c4c05c4705c4605c4405c4305c3705c3605c3505c3305c3205c3005c2f05c2e05c2d05c2b,
  0x05c7e05c7d05c7c05c7b05c7805c7705c7605c7505c7405c7305c7205c7005c6d05c6c05c6b05c6a05c6905c6805c6705c6405c6205c5f05c5d05c5c,
  0x05ca805ca705ca605ca505ca405ca105ca005c9f05c9e05c9d05c9505c9305c9205c8f05c8e05c8b05c8a05c8905c8705c8605c8505c8405c8305c80,
  0x05cce05ccd05ccc05cca05cc905cc805cc705cc605cc505cc305cc205cc005cbe05cbc05cbb05cba05cb905cb605cb405cb205cb005caf05cae05caa,
  0x05cef05cee05cec05ceb05ce905ce705ce305ce205ce005cdf05cde05cdd05cdc05cdb05cda05cd805cd705cd605cd505cd405cd305cd105cd005ccf,
  0x05d0d05d0c05d0b05d0a05d0905d0805d0505d0405d0105d0005cff05cfe05cfd05cfc05cfa05cf905cf805cf705cf605cf505cf405cf305cf205cf1,
  0x05d3005d2f05d2c05d2b05d2a05d2805d2505d2305d2205d2105d2005d1f05d1d05d1c05d1a05d1905d1805d1705d1505d1305d1205d1105d1005d0f,
  0x05d4f05d4e05d4d05d4905d4805d4605d4505d4405d4305d4205d4105d4005d3f05d3c05d3b05d3a05d3905d3805d3705d3605d3505d3305d3205d31,
  0x05d6d05d6a05d6805d6705d6605d6505d6405d6305d6205d6105d6005d5f05d5e05d5c05d5a05d5905d5705d5605d5505d5405d5305d5205d5105d50,
  0x05d8805d8705d8605d8505d8405d8305d8105d8005d7f05d7e05d7d05d7c05d7b05d7a05d7905d7805d7705d7605d7505d7305d7205d7105d7005d6e,
  0x05da205da105da005d9f05d9e05d9c05d9b05d9a05d9805d9705d9605d9505d9405d9305d9205d9105d9005d8f05d8e05d8d05d8c05d8b05d8a05d89,
  0x05dbb05dba05db905db805db605db505db405db305db205db105db005daf05dae05dad05dac05dab05daa05da905da805da705da605da505da405da3,
  0x05dd505dd405dd305dd205dd105dd005dcf05dce05dcc05dcb05dca05dc905dc805dc705dc605dc405dc305dc205dc105dc005dbf05dbe05dbd05dbc,
  0x05e0405e0005dff05dfc05dfb05dfa05df905df805df605df505df005ded05dec05dea05de405de305de005ddf05ddc05dda05dd905dd805dd705dd6,
  0x05e3005e2f05e2c05e2b05e2a05e2905e2805e2505e2405e2305e2205e2105e2005e1f05e1e05e1705e1305e1205e0e05e0d05e0b05e0a05e0905e07,
  0x05e5205e5105e5005e4f05e4e05e4d05e4b05e4a05e4905e4805e4705e4605e4305e4105e4005e3f05e3e05e3a05e3905e3605e3505e3405e3305e32,
  0x05e7005e6f05e6e05e6d05e6c05e6b05e6a05e6905e6805e6705e6605e6505e6405e6305e6005e5f05e5d05e5c05e5a05e5905e5805e5705e5605e53,
  0x05ea905ea805ea405ea305ea205ea105e9d05e9b05e9805e9205e8e05e8d05e8c05e8905e8805e8505e8305e8205e8105e7e05e7905e7705e7505e71,
  0x05ecb05ec805ec705ec605ec505ec405ec305ec205ec105ec005ebf05ebd05ebc05ebb05eba05eb405eb205eb105eb005eaf05eae05eac05eab05eaa,
  0x05ee905ee705ee605ee505ee405ee305ee205ee105ee005edf05ede05edd05edc05eda05ed905ed805ed705ed505ed405ed005ecf05ece05ecd05ecc,
  0x05f1205f1005f0e05f0d05f0c05f0905f0705f0605f0505efd05efc05efb05ef905ef805ef505ef305ef205ef105ef005eef05eee05eed05eec05eeb,
  0x05f3b05f3805f3705f3605f3505f3405f3305f3205f3005f2e05f2c05f2b05f2805f2405f2305f2205f2105f1e05f1d05f1c05f1a05f1905f1605f14,
  0x05f5c05f5b05f5a05f5905f5405f5105f4f05f4e05f4d05f4c05f4b05f4a05f4905f4805f4705f4605f4505f4405f4305f4205f4105f3f05f3e05f3d,
  0x05f8f05f8e05f8d05f8605f8305f7f05f7e05f7d05f7a05f7805f7605f7505f7405f7205f6f05f6e05f6b05f6805f6705f6505f6305f6005f5f05f5e,
  0x05fb305fb205fb105fb005faf05fac05fab05fa905fa705fa605fa505fa405fa305fa205fa005f9f05f9e05f9d05f9b05f9a05f9605f9405f9305f91,
  0x05fdf05fde05fdc05fdb05fda05fd505fd405fd305fce05fcb05fca05fc805fc705fc205fc105fc005fbf05fbe05fbb05fba05fb905fb805fb605fb4,
  0x06011060100600c0600b06009060080600705ffc05ffa05ff905ff705ff605ff405ff305ff205ff005fef05fec05fe905fe805fe605fe505fe305fe2,
  0x0603e0603d0603a0603906038060370603606034060330603206031060300602e0602d0602c0602406023060220601f0601e0601a060180601706013,
  0x0606506061060600605f0605e0605c0605b0605806057060560605406053060510604f0604e0604c0604a06049060480604706046060450604406040,
  0x06097060950609306091060900608f0608e0608b0608a060880608706086060850608206081060800607e06077060750607406072060710606e06066,
  0x060c1060c0060bf060be060bd060ba060b9060b7060b6060b5060b3060b0060ae060aa060a9060a7060a5060a4060a2060a10609e0609c0609906098,
  0x060e5060e4060e3060e2060e1060de060db060d9060d7060d6060d4060d3060d2060d0060cf060ce060cd060cc060c9060c8060c7060c4060c3060c2,
  0x06114061130611206111061100610c0610b0610a0610706105061040610306102060ff060fe060fd060fc060fb060f8060f7060f5060f2060f1060ea,
  0x0613506134061330613206131061300612f0612e0612d0612c0612a06129061280612506122061210611e0611d0611c0611b06119061180611706116,
  0x0615306152061500614f0614d0614b0614906147061460614506144061430614206141061400613e0613d0613c0613b0613a06139061380613706136,
  0x061710616f0616e0616d0616c0616b0616a061690616606165061640616306161061600615f0615e0615c0615b0615a0615906158061570615606154,
  0x0618c0618a061890618806187061860618506184061830618206181061800617f0617e0617d0617c0617b0617a061790617806176061740617306172,
  0x061aa061a6061a5061a4061a3061a2061a1061a00619f0619e0619c0619b0619a0619906198061970619606195061930619206191061900618f0618d,
  0x061c6061c5061c4061c3061c1061c0061bf061bd061bc061bb061ba061b9061b8061b6061b5061b4061b3061b2061b1061b0061af061ae061ad061ab,
  0x061e4061e3061e2061e1061e0061df061de061dd061dc061db061da061d9061d8061d7061d6061d5061d3061d0061cf061ce061cd061cc061c9061c7,
  0x061fe061fd061fc061fb061fa061f9061f8061f7061f6061f4061f3061f2061f1061f0061ef061ee061ed061ec061eb061ea061e9061e8061e7061e5,
  0x062300622f0622d0622b0622906228062270622606223062200621e0621d0621c0621906214062130620906207062050620406203062020620106200,
  0x0625e0625d0625c0625a06259062570625606255062500624f0624a062460624506244062420623c0623b0623a062390623806236062350623206231,
  0x0628b062880628706286062850628306282062810627d0627b0627a0627806277062750627406272062710626806265062640626206261062600625f,
  0x062b7062b6062b4062b3062b2062b0062af062ae062ad062aa062a9062a7062a6062a30629e0629d0629c0629906294062900628f0628e0628d0628c,
  0x062fb062fa062f9062f8062f5062f2062f0062eb062ea062e4062e1062e0062de062dd062d5062d1062cf062cb062c3062c1062c0062be062ba062b8,
  0x0632d0632c0632906327063260631c06319063180631706315063140631306312063100630f0630d0630c0630b0630a0630606305063040630306300,
  0x06356063540635306352063510634a06348063470634406341063400633f0633e0633c0633b06338063370633606335063340633306331063300632e,
  0x0637c063790637806375063740637306372063700636f0636c0636b0636a06368063660636506364063600635d0635c0635b0635a063590635806357,
  0x063a4063a10639f0639e0639d0639c0639b0639a0639906397063950639406393063910638d0638b06386063850638406383063810637f0637e0637d,
  0x063d4063d3063d1063cc063cb063ca063c8063c7063c5063c3063c2063c1063c0063bf063bd063bb063b9063b6063b5063b2063b1063af063ab063a6,
  0x063f7063f5063f3063f1063f0063ef063ee063ec063eb063e8063e7063e6063e5063e4063e2063df063dd063dc063db063da063d9063d8063d7063d5,
  0x0641f0641d0641a064190641806417064160641506412064110640e0640d0640a064090640806407064060640406403063fe063fc063fb063fa063f9,
  0x06442064400643e0643c0643b0643906438064370643606435064330643206431064300642f0642e0642b06429064280642706425064240642306422,
  0x06464064630646206461064600645f0645d0645c0645b0645a064590645706456064550645306451064500644f0644e0644d0644c0644b0644906443,
  0x0648306481064800647f0647e0647d0647c0647b06477064760647506474064730647206471064700646f0646e0646c0646b0646a064680646606465,
  0x064a5064a3064a2064a1064a00649f0649d0649c0649b0649a06498064970649406493064900648f0648e0648d0648c0648b0648a064890648806486,
  0x064ca064c9064c8064c7064c6064c4064c3064c1064bf064be064bd064bb064b9064b6064b4064b3064b2064b1064af064ab064aa064a8064a7064a6,
  0x064ec064eb064ea064e9064e8064e7064e5064e3064e1064e0064df064dd064dc064db064da064d9064d6064d5064d4064d3064d1064cf064cc064cb,
  0x0650506504065030650206501064ff064fe064fd064fc064fb064fa064f9064f8064f7064f6064f5064f4064f3064f2064f1064f0064ef064ee064ed,
  0x065200651f0651e0651d0651c0651b0651a06519065170651606515065140651306511065100650f0650e0650d0650c0650b0650a065080650706506,
  0x06544065430654206541065400653d0653c0653a06537065330653206531065300652d0652c0652a0652906528065270652606524065230652206521,
  0x0656d0656a065690656806567065650656406561065600655f0655c0655a0655806557065540655306552065500654e0654d0654b0654a0654706546,
  0x0658a0658906588065860658506584065830658206581065800657f0657e0657d0657c0657b0657a0657906578065760657506573065710656f0656e,
  0x065b5065b4065b3065b2065b1065ae065ac065aa065a8065a6065a3065a2065a00659e0659d0659a06598065960659506594065920658f0658e0658d,
  0x065dc065db065da065d9065d8065d5065d4065d3065d1065d0065cd065ca065c9065c8065c7065c2065c0065bf065be065bb065ba065b8065b7065b6,
  0x0660806607066050660406601065ff065fe065fd065fc065fb065f9065f8065f5065f4065f3065f2065eb065ea065e4065e3065e1065df065de065dd,
  0x066300662e0662c0662b0662a0662906626066240662306622066210661e0661c0661b0661a0661806617066160661206611066100660d0660b06609,
  0x066590665806651066500664e0664d0664a06649066480664706646066450664406642066400663f0663d0663b0663a0663906638066370663306632,
  0x0667f0667d0667c0667b0667906678066750667306672066710666d0666c0666b0666a0666906667066650666306662066600665e0665d0665c0665b,
  0x0669f0669e0669c0669b0669a066990669806695066940669306692066900668f0668e0668d0668b0668a06689066880668606685066830668106680,
  0x066bc066bb066ba066b8066b7066b6066b5066b3066b2066b1066b0066af066ad066ac066ab066aa066a9066a6066a5066a4066a3066a2066a1066a0,
  0x066d5066d4066d3066d2066d1066d0066cf066ce066cd066cc066cb066ca066c9066c8066c7066c6066c5066c4066c3066c2066c1066c0066bf066bd,
  0x066f8066f6066f5066f1066ef066ee066ed066ec066eb066ea066e8066e7066e5066e4066e3066e2066e1066e0066df066de066da066d8066d7066d6,
  0x06721067200671e0671c0671a0671906718067160671306712067110670f0670e0670c06707067060670506704067030670206701066fd066fb066fa,
  0x0674b0674a067470674506744067410673f0673e0673c0673b067390673806737067360673306732067300672e067290672706725067240672306722,
  0x0677a06779067780677606774067710676e0676c0676b06767067660676406763067620675d0675b0675a0675906758067570675506754067520674d,
  0x067a4067a1067a00679f0679b0679906796067940679306792067910678f0678e0678d0678c0678a0678806786067850678306782067800677d0677b,
  0x067cc067cb067ca067c9067c8067c7067c6067c5067c2067c0067bf067be067bd067bc067bb067ba067b9067b4067b2067b1067ae067ac067a9067a6,
  0x067fa067f9067f8067f7067f6067f5067f2067ee067ed067eb067ea067e8067e7067e6067e4067e3067e1067df067db067d7067d6067d5067ce067cd,
  0x068240682306822068200681f0681e0681c0681b0681a0681906818068150681406812068100680d0680606804068030680206801067fe067fc067fb,
  0x0685706856068520684f0684d0684b068470683f0683b0683a06836068350683406831068300682f0682e0682d0682c0682b06828068270682606825,
  0x0687d0687c0687b0687a068790687806875068730687206871068700686f0686e0686d0686c0686a0685f0685e0685d0685c0685b0685a0685906858,
  0x0689c0689b0689a06899068980689606895068940689206891068900688e0688d0688c0688b0688a0688906888068870688406882068800687f0687e,
  0x068bd068bc068bb068ba068b9068b8068b7068b6068b4068b2068b1068ae068ac068ab068aa068a9068a5068a4068a3068a1068a00689f0689e0689d,
  0x068de068dd068dc068db068d9068d7068d6068d4068d3068d1068d0068cf068ce068cc068ca068c8068c7068c6068c5068c4068c3068c1068bf068be,
  0x068ff068fe068fd068fb068f8068f7068f6068f4068f3068f2068ef068ed068ec068eb068ea068e9068e8068e7068e6068e5068e4068e2068e1068df,
  0x0691e0691d0691c0691b0691a06919069180691706916069150691406913069110690f0690c0690a0690906908069070690606904069030690206900,
  0x0693e0693c0693b0693a069380693706936069350693306932069310692f0692e0692c0692b0692a0692906928069270692606925069230692206921,
  0x0695b06959069580695606955069530695206951069500694f0694e0694d0694c0694b0694a069490694806947069460694506944069430694106940,
  0x0697f0697e0697d0697b0697a0697606975069740697306972069700696f0696d0696c0696a069690696806967069650696406962069610695f0695c,
  0x069a4069a3069a2069a1069a00699f0699e0699d0699a069990699706996069930699206991069900698f0698e0698c0698b0698a069850698306981,
  0x069c5069c4069c3069c2069c0069bf069be069bd069bc069ba069b9069b8069b6069b5069b3069b2069b0069af069ae069ac069aa069a9069a6069a5,
  0x069e5069e4069e3069e2069e1069de069dd069dc069da069d9069d8069d7069d6069d5069d3069d2069d1069cf069cd069cb069c9069c8069c7069c6,
  0x06a0106a00069fe069fc069fb069fa069f9069f8069f7069f6069f5069f4069f3069f1069f0069ef069ee069ec069eb069ea069e9069e8069e7069e6,
  0x06a1c06a1b06a1a06a1906a1606a1506a1406a1306a1206a1106a1006a0f06a0e06a0d06a0c06a0b06a0906a0806a0706a0606a0506a0406a0306a02,
  0x06a3b06a3a06a3906a3806a3706a3606a3406a3306a3206a3006a2e06a2d06a2c06a2b06a2906a2706a2606a2506a2406a2306a2206a2006a1e06a1d,
  0x06a5a06a5706a5606a5506a5406a5306a5206a5106a4f06a4e06a4d06a4c06a4b06a4a06a4906a4806a4606a4506a4306a4206a4106a4006a3f06a3c,
  0x06a7606a7506a7406a7306a7206a7006a6f06a6e06a6d06a6c06a6b06a6a06a6906a6806a6706a6606a6406a6306a6206a6006a5f06a5e06a5d06a5c,
  0x06a9506a9406a9306a9206a8f06a8d06a8c06a8b06a8a06a8906a8806a8706a8606a8506a8306a8206a8106a7f06a7e06a7d06a7b06a7a06a7806a77,
  0x06ab206ab106ab006aaf06aae06aad06aaa06aa806aa706aa606aa506aa406aa306aa206aa106a9f06a9e06a9d06a9c06a9b06a9a06a9906a9806a96,
  0x06aca06ac906ac806ac706ac606ac506ac406ac306ac206ac106ac006abf06abe06abd06abc06abb06aba06ab906ab806ab706ab606ab506ab406ab3,
  0x06ae206ae106ae006adf06ade06add06adc06adb06ada06ad906ad806ad706ad606ad506ad406ad306ad206ad106ad006acf06ace06acd06acc06acb,
  0x06afa06af906af806af706af606af506af406af306af206af106af006aef06aee06aed06aec06aeb06aea06ae906ae806ae706ae606ae506ae406ae3,
  0x06b1206b1106b1006b0f06b0e06b0d06b0c06b0b06b0a06b0906b0806b0706b0606b0506b0406b0306b0206b0106b0006aff06afe06afd06afc06afb,
  0x06b3006b2f06b2e06b2d06b2c06b2b06b2a06b2906b2806b2606b2506b1f06b1e06b1d06b1c06b1b06b1a06b1906b1806b1706b1606b1506b1406b13,
  0x06b5206b5106b5006b4f06b4e06b4d06b4b06b4a06b4806b4506b4406b4206b4106b4006b3f06b3d06b3c06b3b06b3806b3606b3506b3406b3306b31,
  0x06b7206b7106b7006b6f06b6e06b6d06b6c06b6b06b6906b6806b6106b6006b5f06b5e06b5d06b5c06b5b06b5a06b5806b5706b5606b5506b5406b53,
  0x06b9c06b9906b9806b9706b9506b9406b9106b9006b8f06b8e06b8c06b8806b8506b8006b7f06b7e06b7d06b7a06b7806b7706b7606b7506b7406b73,
  0x06bba06bb906bb806bb606bb206bb106bb006baf06bae06bad06bac06bab06ba906ba806ba706ba606ba506ba406ba306ba206ba006b9f06b9e06b9d,
  0x06be206be006bdf06bde06bdd06bdc06bda06bd806bd106bd006bce06bcc06bca06bc906bc806bc706bc606bc406bc306bc006bbe06bbd06bbc06bbb,
  0x06c0106c0006bff06bfe06bfc06bfb06bfa06bf806bf706bf606bf406bf206bf106bf006bee06bed06bec06be906be806be706be606be506be406be3,
  0x06c3706c3606c3306c3106c2d06c2c06c2b06c2506c2306c2006c1e06c1d06c1c06c1706c1206c0e06c0c06c0b06c0a06c0906c0806c0406c0306c02,
  0x06c6306c6206c5a06c5906c5806c5606c5306c5206c5106c4f06c4e06c4d06c4c06c4b06c4806c4506c4406c4306c3f06c3e06c3c06c3b06c3a06c39,
  0x06c8e06c8d06c8b06c8a06c8706c8406c8006c7f06c7c06c7b06c7a06c7806c7706c7506c7306c7106c6f06c6e06c6d06c6c06c6b06c6706c6606c65,
  0x06cc206cc106cc006cba06cb706cb606cb506cb406cb006caf06cac06ca806ca206ca006c9e06c9d06c9c06c9a06c9806c9706c9606c9506c9206c91,
  0x06cf406cf206ced06cec06ce906ce706ce606ce406cdf06cdd06cdc06cda06cd906cd806cd206cd106ccf06cce06ccd06ccb06cc806cc706cc606cc3,
  0x06d2106d2006d1f06d1d06d1c06d1806d1606d1506d1406d1306d1106d1006d0f06d0d06d0a06d0906d0806d0606d0506d0306d0206d0006cff06cf9,
  0x06d5606d5506d5006d4c06d4906d4406d4206d4006d3f06d3a06d3806d3706d3606d3406d3006d2f06d2d06d2c06d2906d2806d2606d2406d2306d22,
  0x06d7d06d7b06d7a06d7906d7606d7506d7306d7206d7106d7006d6d06d6c06d6b06d6806d6706d6506d6406d6206d6106d5f06d5d06d5b06d5806d57,
  0x06dad06dac06da506da206d9c06d9a06d9906d9806d9706d9606d9206d9006d8f06d8d06d8b06d8a06d8706d8606d8406d8306d8106d8006d7f06d7e,
  0x06dd306dd206dd006dcf06dce06dcd06dca06dc906dc806dc306dc206dc106dbe06dbd06dbc06dbb06dba06db906db706db606db406db306db106db0,
  0x06dfd06dfa06df806df606df506df406df206df006def06ded06dea06de906de806de706de506de306de206ddf06ddc06ddb06dda06dd706dd506dd4,
  0x06e2606e2206e1f06e1e06e1c06e1b06e1906e1806e1506e1306e1206e0f06e0b06e0906e0806e0706e0606e0406e0306e0206e0106e0006dff06dfe,
  0x06e4806e4706e4606e4506e4206e4106e4006e3f06e3e06e3d06e3c06e3b06e3906e3706e3606e3506e3306e3106e3006e2e06e2c06e2a06e2806e27,
  0x06e6806e6706e6606e6506e6406e6306e6206e6106e6006e5e06e5d06e5c06e5a06e5906e5706e5506e5206e5106e5006e4f06e4c06e4b06e4a06e49,
  0x06e8706e8406e8206e8106e8006e7d06e7c06e7b06e7a06e7906e7806e7706e7606e7506e7406e7306e7206e7106e7006e6f06e6d06e6c06e6a06e69,
  0x06ea806ea606ea406ea306ea106ea006e9e06e9d06e9b06e9a06e9906e9706e9606e9506e9406e9306e9206e9106e8e06e8d06e8c06e8b06e8a06e88,
  0x06ece06ecd06ecc06eca06ec906ec806ec606ec506ec406ec306ec006ebf06ebe06ebc06eb906eb806eb506eb306eb006eae06ead06eac06eab06ea9,
  0x06ef806ef706ef606ef506ef306ef206ef106ef006eef06eee06eed06eec06eeb06eea06ee706ee306edd06edc06edb06ed906ed806ed606ed206ed0,
  0x06f1806f1706f1606f1206f1106f1006f0e06f0d06f0c06f0b06f0a06f0806f0706f0506f0406f0306f0106f0006eff06efe06efd06efc06efb06efa,
  0x06f3a06f3906f3806f3706f3506f3406f3206f3006f2e06f2c06f2806f2706f2606f2506f2306f2206f2106f1f06f1e06f1d06f1c06f1b06f1a06f19,
  0x06f5706f5606f5506f5406f5306f5206f5106f5006f4f06f4e06f4c06f4a06f4906f4806f4506f4406f4306f4206f4106f4006f3f06f3d06f3c06f3b,
  0x06f7906f7706f7606f7506f7306f7106f7006f6f06f6c06f6b06f6a06f6906f6806f6706f6506f6406f6306f6106f6006f5f06f5d06f5b06f5a06f59,
  0x06f9906f9806f9706f9606f9506f9406f9306f9206f9106f9006f8f06f8b06f8a06f8706f8606f8506f8306f8206f8106f8006f7f06f7e06f7d06f7b,
  0x06fb506fb406fb206fb106fb006faf06fae06fad06fac06fab06faa06fa906fa806fa606fa506fa406fa306fa206fa006f9f06f9e06f9d06f9b06f9a,
  0x06fd406fd306fd006fcf06fce06fcd06fcc06fcb06fca06fc806fc706fc606fc506fc406fc306fc106fbf06fbe06fbd06fbc06fbb06fba06fb806fb7,
  0x06ff106ff006fed06fec06feb06fea06fe906fe806fe706fe606fe506fe406fe306fe206fdf06fdd06fdc06fdb06fda06fd906fd806fd706fd606fd5,
  0x0700907008070070700607005070040700307002070010700006fff06ffe06ffd06ffc06ffb06ffa06ff906ff806ff706ff606ff506ff406ff306ff2,
  0x07025070240702207021070200701f0701e0701d0701c0701907018070170701607015070140701307012070100700f0700e0700d0700c0700b0700a,
  0x0703f0703e0703d0703c0703b0703a07038070370703607034070330703207031070300702f0702e0702d0702c0702b0702a07029070280702707026,
  0x070590705807057070560705507054070530705207051070500704e0704d0704b0704a07049070480704707046070450704407043070420704107040,
  0x0707a0707907077070740707307072070710706e0706a070690706807067070660706507064070630706207061070600705f0705d0705c0705b0705a,
  0x070a1070a00709f0709e0709b0709a07098070970709307091070900708f0708d0708c0708b070880708707086070840708307082070810707d0707b,
  0x070cc070cb070c9070c7070c6070c5070c4070bf070be070ba070b6070b5070b4070b2070b0070aa070a9070a8070a7070a6070a5070a4070a3070a2,
  0x070f1070f0070ee070ea070e5070e3070e2070e1070e0070de070dd070dc070da070d7070d6070d5070d4070d3070d2070d1070d0070cf070ce070cd,
  0x0710e0710d0710c0710b071080710707106071050710407103071020710107100070ff070fe070fc070fb070fa070f8070f6070f5070f4070f3070f2,
  0x0712e0712d0712c0712b0712a0712907128071270712507124071230712207121071200711f0711e0711d0711c0711b071170711407112071110710f,
  0x0714d0714b0714907148071470714607144071430714207141071400713f0713e0713d0713c0713b0713a07139071380713707135071340713307132,
  0x0716c0716b0716a0716907165071630716207161071600715f0715d0715b0715a071590715807157071560715507154071530715207151071500714f,
  0x0718c0718b0718907188071870718607185071830718207181071800717f0717e0717c0717b071790717707176071750717407171071700716f0716d,
  0x071ab071aa071a9071a7071a6071a5071a4071a3071a2071a10719e0719d0719c0719b0719a071970719607195071930719207191071900718e0718d,
  0x071c8071c7071c6071c5071c4071c2071c1071c0071bf071be071bd071bc071bb071ba071b8071b7071b6071b4071b2071b1071b0071af071ae071ad,
  0x071e4071e3071e2071e1071df071de071dd071dc071db071da071d9071d8071d7071d6071d3071d2071d1071d0071cf071cd071cc071cb071ca071c9,
  0x07200071ff071fe071fd071fc071fb071fa071f8071f7071f6071f5071f4071f3071f2071f1071f0071ef071ed071ec071eb071ea071e9071e8071e6,
  0x072190721807217072160721507214072130721207211072100720f0720e0720d0720c0720b0720a0720907208072070720507204072030720207201,
  0x0723e0723c0723a0723407233072320722f0722e0722d0722b0722907227072260722507224072230722207221072200721f0721e0721c0721b0721a,
  0x07263072600725e0725c0725a072580725707255072540725307251072500724f0724e0724b0724a0724907246072450724407243072420724107240,
  0x072890728807287072860728507283072820727d0727c0727b072780727707276072740727307271072700726d0726c0726b0726a072680726507264,
  0x072a7072a6072a5072a4072a3072a2072a1072a00729e0729d0729c0729b0729a0729907298072970729607295072940729307291072900728e0728c,
  0x072cf072cc072cb072ca072c9072c7072c6072c5072c0072bf072be072bd072bc072bb072ba072b5072b3072b2072b1072ae072ab072aa072a9072a8,
  0x0e4d50e4d40e4d30e4d20e4d10e4d00e4cf0e4ce0e4cd0e4cc0e4cb0e4ca0e4c90e4c80e4c70e4c6072db072da072d8072d6072d5072d4072d3072d1,
  0x0e4ed0e4ec0e4eb0e4ea0e4e90e4e80e4e70e4e60e4e50e4e40e4e30e4e20e4e10e4e00e4df0e4de0e4dd0e4dc0e4db0e4da0e4d90e4d80e4d70e4d6,
  0x0e5050e5040e5030e5020e5010e5000e4ff0e4fe0e4fd0e4fc0e4fb0e4fa0e4f90e4f80e4f70e4f60e4f50e4f40e4f30e4f20e4f10e4f00e4ef0e4ee,
  0x0e51d0e51c0e51b0e51a0e5190e5180e5170e5160e5150e5140e5130e5120e5110e5100e50f0e50e0e50d0e50c0e50b0e50a0e5090e5080e5070e506,
  0x0201c020190201802026020160ff5e020140300503003000a8002c7002c9000b70300203001030000e5250e5240e5230e5220e5210e5200e51f0e51e,
  0x0222a0220f02211022280222702236000f7000d7000b1030110301003017030160300f0300e0300d0300c0300b0300a030090300803015030140201d,
  0x02234022350221e02265022640226f0226e022600221d0223d022480224c022610222e0222b02299023120222002225022a50221a022370220802229,
  0x025b2025b3025a0025a1025c6025c7025ce025cf025cb026050260602116000a7020300ffe10ffe0000a40ff04021030203302032000b00264002642,
  0x0e5370e5360e5350e5340e5330e5320e5310e5300e52f0e52e0e52d0e52c0e52b0e52a0e5290e5280e5270e52603013021930219102190021920203b,
  0x0e54f0e54e0e54d0e54c0e54b0e54a0e5490e5480e5470e5460e5450e5440e5430e5420e5410e5400e53f0e53e0e53d0e53c0e53b0e53a0e5390e538,
  0x0e5670e5660e5650e5640e5630e5620e5610e5600e55f0e55e0e55d0e55c0e55b0e55a0e5590e5580e5570e5560e5550e5540e5530e5520e5510e550,
  0x0e57f0e57e0e57d0e57c0e57b0e57a0e5790e5780e5770e5760e5750e5740e5730e5720e5710e5700e56f0e56e0e56d0e56c0e56b0e56a0e5690e568,
  0x02489024880e76b0e76a0e7690e7680e7670e766021790217802177021760217502174021730217202171021700e5850e5840e5830e5820e5810e580,
  0x0247902478024770247602475024740249b0249a024990249802497024960249502494024930249202491024900248f0248e0248d0248c0248b0248a,
  0x0246902468024670246602465024640246302462024610246002487024860248502484024830248202481024800247f0247e0247d0247c0247b0247a,
  0x021690216802167021660216502164021630216202161021600e76f0e76e032290322803227032260322503224032230322203221032200e76d020ac,
  0x0e5990e5980e5970e5960e5950e5940e5930e5920e5910e5900e58f0e58e0e58d0e58c0e58b0e58a0e5890e5880e5870e5860e7710e7700216b0216a,
  0x0e5b10e5b00e5af0e5ae0e5ad0e5ac0e5ab0e5aa0e5a90e5a80e5a70e5a60e5a50e5a40e5a30e5a20e5a10e5a00e59f0e59e0e59d0e59c0e59b0e59a,
  0x0e5c90e5c80e5c70e5c60e5c50e5c40e5c30e5c20e5c10e5c00e5bf0e5be0e5bd0e5bc0e5bb0e5ba0e5b90e5b80e5b70e5b60e5b50e5b40e5b30e5b2,
  0x0e5e10e5e00e5df0e5de0e5dd0e5dc0e5db0e5da0e5d90e5d80e5d70e5d60e5d50e5d40e5d30e5d20e5d10e5d00e5cf0e5ce0e5cd0e5cc0e5cb0e5ca,
  0x0ff140ff130ff120ff110ff100ff0f0ff0e0ff0d0ff0c0ff0b0ff0a0ff090ff080ff070ff060ff050ffe50ff030ff020ff01030000e5e40e5e30e5e2,
  0x0ff2c0ff2b0ff2a0ff290ff280ff270ff260ff250ff240ff230ff220ff210ff200ff1f0ff1e0ff1d0ff1c0ff1b0ff1a0ff190ff180ff170ff160ff15,
  0x0ff440ff430ff420ff410ff400ff3f0ff3e0ff3d0ff3c0ff3b0ff3a0ff390ff380ff370ff360ff350ff340ff330ff320ff310ff300ff2f0ff2e0ff2d,
  0x0ff5c0ff5b0ff5a0ff590ff580ff570ff560ff550ff540ff530ff520ff510ff500ff4f0ff4e0ff4d0ff4c0ff4b0ff4a0ff490ff480ff470ff460ff45,
  0x0e5fb0e5fa0e5f90e5f80e5f70e5f60e5f50e5f40e5f30e5f20e5f10e5f00e5ef0e5ee0e5ed0e5ec0e5eb0e5ea0e5e90e5e80e5e70e5e60ffe30ff5d,
  0x0e6130e6120e6110e6100e60f0e60e0e60d0e60c0e60b0e60a0e6090e6080e6070e6060e6050e6040e6030e6020e6010e6000e5ff0e5fe0e5fd0e5fc,
  0x0e62b0e62a0e6290e6280e6270e6260e6250e6240e6230e6220e6210e6200e61f0e61e0e61d0e61c0e61b0e61a0e6190e6180e6170e6160e6150e614,
  0x0e6430e6420e6410e6400e63f0e63e0e63d0e63c0e63b0e63a0e6390e6380e6370e6360e6350e6340e6330e6320e6310e6300e62f0e62e0e62d0e62c,
  0x030560305503054030530305203051030500304f0304e0304d0304c0304b0304a0304903048030470304603045030440304303042030410e6450e644,
  0x0306e0306d0306c0306b0306a030690306803067030660306503064030630306203061030600305f0305e0305d0305c0305b0305a030590305803057,
  0x030860308503084030830308203081030800307f0307e0307d0307c0307b0307a030790307803077030760307503074030730307203071030700306f,
  0x0e77c0e77b0e77a0e7790e7780e7770e7760e7750e7740e7730e772030930309203091030900308f0308e0308d0308c0308b0308a030890308803087,
  0x0e65d0e65c0e65b0e65a0e6590e6580e6570e6560e6550e6540e6530e6520e6510e6500e64f0e64e0e64d0e64c0e64b0e64a0e6490e6480e6470e646,
  0x0e6750e6740e6730e6720e6710e6700e66f0e66e0e66d0e66c0e66b0e66a0e6690e6680e6670e6660e6650e6640e6630e6620e6610e6600e65f0e65e,
  0x0e68d0e68c0e68b0e68a0e6890e6880e6870e6860e6850e6840e6830e6820e6810e6800e67f0e67e0e67d0e67c0e67b0e67a0e6790e6780e6770e676,
  0x0e6a50e6a40e6a30e6a20e6a10e6a00e69f0e69e0e69d0e69c0e69b0e69a0e6990e6980e6970e6960e6950e6940e6930e6920e6910e6900e68f0e68e,
  0x030b8030b7030b6030b5030b4030b3030b2030b1030b0030af030ae030ad030ac030ab030aa030a9030a8030a7030a6030a5030a4030a3030a2030a1,
  0x030d0030cf030ce030cd030cc030cb030ca030c9030c8030c7030c6030c5030c4030c3030c2030c1030c0030bf030be030bd030bc030bb030ba030b9,
  0x030e8030e7030e6030e5030e4030e3030e2030e1030e0030df030de030dd030dc030db030da030d9030d8030d7030d6030d5030d4030d3030d2030d1,
  0x0e6a70e6a60e7840e7830e7820e7810e7800e77f0e77e0e77d030f6030f5030f4030f3030f2030f1030f0030ef030ee030ed030ec030eb030ea030e9,
  0x0e6bf0e6be0e6bd0e6bc0e6bb0e6ba0e6b90e6b80e6b70e6b60e6b50e6b40e6b30e6b20e6b10e6b00e6af0e6ae0e6ad0e6ac0e6ab0e6aa0e6a90e6a8,
  0x0e6d70e6d60e6d50e6d40e6d30e6d20e6d10e6d00e6cf0e6ce0e6cd0e6cc0e6cb0e6ca0e6c90e6c80e6c70e6c60e6c50e6c40e6c30e6c20e6c10e6c0,
  0x0e6ef0e6ee0e6ed0e6ec0e6eb0e6ea0e6e90e6e80e6e70e6e60e6e50e6e40e6e30e6e20e6e10e6e00e6df0e6de0e6dd0e6dc0e6db0e6da0e6d90e6d8,
  0x00392003910e7050e7040e7030e7020e7010e7000e6ff0e6fe0e6fd0e6fc0e6fb0e6fa0e6f90e6f80e6f70e6f60e6f50e6f40e6f30e6f20e6f10e6f0,
  0x0e7860e785003a9003a8003a7003a6003a5003a4003a3003a1003a00039f0039e0039d0039c0039b0039a00399003980039700396003950039400393,
  0x003c3003c1003c0003bf003be003bd003bc003bb003ba003b9003b8003b7003b6003b5003b4003b3003b2003b10e78c0e78b0e78a0e7890e7880e787,
  0x0fe430fe420fe410fe3e0fe3d0fe400fe3f0fe3a0fe390fe360fe350e7930e7920e7910e7900e78f0e78e0e78d003c9003c8003c7003c6003c5003c4,
  0x0e7090e7080e7070e7060e79f0e79e0e79d0e79c0e79b0e79a0e7990e7980e7970fe340fe330e7960fe310fe380fe370fe3c0fe3b0e7950e7940fe44,
  0x0e7210e7200e71f0e71e0e71d0e71c0e71b0e71a0e7190e7180e7170e7160e7150e7140e7130e7120e7110e7100e70f0e70e0e70d0e70c0e70b0e70a,
  0x0e7390e7380e7370e7360e7350e7340e7330e7320e7310e7300e72f0e72e0e72d0e72c0e72b0e72a0e7290e7280e7270e7260e7250e7240e7230e722,
  0x0e7510e7500e74f0e74e0e74d0e74c0e74b0e74a0e7490e7480e7470e7460e7450e7440e7430e7420e7410e7400e73f0e73e0e73d0e73c0e73b0e73a,
  0x004130041200411004100e7650e7640e7630e7620e7610e7600e75f0e75e0e75d0e75c0e75b0e75a0e7590e7580e7570e7560e7550e7540e7530e752,
  0x0042a004290042800427004260042500424004230042200421004200041f0041e0041d0041c0041b0041a00419004180041700416004010041500414,
  0x004330043200431004300e7ae0e7ad0e7ac0e7ab0e7aa0e7a90e7a80e7a70e7a60e7a50e7a40e7a30e7a20e7a10e7a00042f0042e0042d0042c0042b,
  0x0044a004490044800447004460044500444004430044200441004400043f0043e0043d0043c0043b0043a00439004380043700436004510043500434,
  0x020250201502013002d9002cb002ca0e7bb0e7ba0e7b90e7b80e7b70e7b60e7b50e7b40e7b30e7b20e7b10e7b00e7af0044f0044e0044d0044c0044b,
  0x02559025580255702556025550255402553025520255102550022bf022670226602252022230221f0221502199021980219702196021090210502035,
  0x02571025700256f0256e0256d0256c0256b0256a025690256802567025660256502564025630256202561025600255f0255e0255d0255c0255b0255a,
  0x025e3025e2025bd025bc0259502594025930258f0258e0258d0258c0258b0258a0258902588025870258602585025840258302582025810257302572,
  0x000e900113000e0001ce000e1001010e7c60e7c50e7c40e7c30e7c20e7c10e7c00e7bf0e7be0e7bd0e7bc0301e0301d030120229502609025e5025e4,
  0x001480014401e3f00251000ea000fc001dc001da001d8001d6000f9001d4000fa0016b000f2001d2000f30014d000ec001d0000ed0012b000e80011b,
  0x031160311503114031130311203111031100310f0310e0310d0310c0310b0310a03109031080310703106031050e7cc0e7cb0e7ca0e7c900261001f9,
  0x0e7d10e7d00e7cf0e7ce0e7cd031290312803127031260312503124031230312203121031200311f0311e0311d0311c0311b0311a031190311803117,
  0x03028030270302603025030240302303022030210e7e10e7e00e7df0e7de0e7dd0e7dc0e7db0e7da0e7d90e7d80e7d70e7d60e7d50e7d40e7d30e7d2,
  0x0e7e60e7e50e7e4020100e7e303231021210e7e20ffe40ffe20fe30033d5033d2033d1033ce033c4033a10339e0339d0339c0338f0338e032a303029,
  0x0fe5a0fe590fe570fe560fe550fe540fe520fe510fe500fe4f0fe4e0fe4d0fe4c0fe4b0fe4a0fe490309e0309d03006030fe030fd0309c0309b030fc,
  0x02ff602ff502ff402ff302ff202ff102ff00303e0fe6b0fe6a0fe690fe680fe660fe650fe640fe630fe620fe610fe600fe5f0fe5e0fe5d0fe5c0fe5b,
  0x02504025030250202501025000e8000e7ff0e7fe0e7fd0e7fc0e7fb0e7fa0e7f90e7f80e7f70e7f60e7f50e7f40300702ffb02ffa02ff902ff802ff7,
  0x0251c0251b0251a025190251802517025160251502514025130251202511025100250f0250e0250d0250c0250b0250a0250902508025070250602505,
  0x02534025330253202531025300252f0252e0252d0252c0252b0252a025290252802527025260252502524025230252202521025200251f0251e0251d,
  0x0e8010254b0254a025490254802547025460254502544025430254202541025400253f0253e0253d0253c0253b0253a0253902538025370253602535,
  0x072ea072e7072e6072e5072e4072e3072e2072df072dd072dc0e80f0e80e0e80d0e80c0e80b0e80a0e8090e8080e8070e8060e8050e8040e8030e802,
  0x07318073140731207311073100730f0730d0730c0730b0730907308073070730607305073040730207300072ff072fe072fd072f9072f6072f5072eb,
  0x073430734207341073400733d0733c0733b0733a07336073350733307332073300732f0732d0732807327073260732407323073200731f0731a07319,
  0x0735f0735e0735d0735c0735b0735a073590735807356073550735407353073510734f0734e0734c0734b0734a073490734807347073460734507344,
  0x0e0090e0080e0070e0060e0050e0040e0030e0020e0010e00007371073700736e0736b0736a073690736807367073660736507364073630736207361,
  0x0e0210e0200e01f0e01e0e01d0e01c0e01b0e01a0e0190e0180e0170e0160e0150e0140e0130e0120e0110e0100e00f0e00e0e00d0e00c0e00b0e00a,
  0x0e0390e0380e0370e0360e0350e0340e0330e0320e0310e0300e02f0e02e0e02d0e02c0e02b0e02a0e0290e0280e0270e0260e0250e0240e0230e022,
  0x0e0510e0500e04f0e04e0e04d0e04c0e04b0e04a0e0490e0480e0470e0460e0450e0440e0430e0420e0410e0400e03f0e03e0e03d0e03c0e03b0e03a,
  0x0737d0737c0737b0737a07379073780737707376073750737407373073720e05d0e05c0e05b0e05a0e0590e0580e0570e0560e0550e0540e0530e052,
  0x0739e0739d0739c0739a07399073980739707395073940739307392073900738f0738d0738c0738a073880738607385073830738207381073800737f,
  0x073c4073c3073c1073bf073be073bd073bc073b9073b8073b6073b5073b4073b1073ad073ac073aa073a8073a7073a6073a5073a4073a3073a1073a0,
  0x073e8073e6073e4073e3073e2073e1073df073dd073dc073db073da073d8073d7073d6073d5073d4073d3073d2073ce073cc073cb073c7073c6073c5,
  0x0e0690e0680e0670e0660e0650e0640e0630e0620e0610e0600e05f0e05e073f7073f6073f5073f4073f3073f1073f0073ef073ee073ec073eb073ea,
  0x0e0810e0800e07f0e07e0e07d0e07c0e07b0e07a0e0790e0780e0770e0760e0750e0740e0730e0720e0710e0700e06f0e06e0e06d0e06c0e06b0e06a,
  0x0e0990e0980e0970e0960e0950e0940e0930e0920e0910e0900e08f0e08e0e08d0e08c0e08b0e08a0e0890e0880e0870e0860e0850e0840e0830e082,
  0x0e0b10e0b00e0af0e0ae0e0ad0e0ac0e0ab0e0aa0e0a90e0a80e0a70e0a60e0a50e0a40e0a30e0a20e0a10e0a00e09f0e09e0e09d0e09c0e09b0e09a,
  0x074080740707404074020740107400073ff073fe073fd073fc073fb073fa073f9073f80e0bb0e0ba0e0b90e0b80e0b70e0b60e0b50e0b40e0b30e0b2,
  0x0742b0742907427074240742307421074200741f0741e0741d0741c0741907418074170741607415074140741307412074110740e0740d0740c0740b,
  0x0744c0744b0744a0744907448074470744607445074440744307442074400743f0743e0743d0743b0743a07439074380743707432074310742f0742d,
  0x0746c0746b0746a074690746807467074660746507464074630746207461074600745d074580745607454074530745207451074500744f0744e0744d,
  0x0e0c90e0c80e0c70e0c60e0c50e0c40e0c30e0c20e0c10e0c00e0bf0e0be0e0bd0e0bc0747a074790747807475074740747307472074710746f0746e,
  0x0e0e10e0e00e0df0e0de0e0dd0e0dc0e0db0e0da0e0d90e0d80e0d70e0d60e0d50e0d40e0d30e0d20e0d10e0d00e0cf0e0ce0e0cd0e0cc0e0cb0e0ca,
  0x0e0f90e0f80e0f70e0f60e0f50e0f40e0f30e0f20e0f10e0f00e0ef0e0ee0e0ed0e0ec0e0eb0e0ea0e0e90e0e80e0e70e0e60e0e50e0e40e0e30e0e2,
  0x0e1110e1100e10f0e10e0e10d0e10c0e10b0e10a0e1090e1080e1070e1060e1050e1040e1030e1020e1010e1000e0ff0e0fe0e0fd0e0fc0e0fb0e0fa,
  0x07492074910748f0748d0748c0748a0748907488074860748507484074820747f0747d0747c0747b0e1190e1180e1170e1160e1150e1140e1130e112,
  0x074af074ae074ad074ac074ab074aa074a6074a5074a4074a3074a2074a1074a00749f0749d0749b0749a07499074980749707496074950749407493,
  0x074c8074c7074c6074c5074c4074c3074c2074c1074c0074bf074be074bd074bc074bb074b9074b8074b7074b6074b5074b4074b3074b2074b1074b0,
  0x074e8074e7074e5074e1074df074dd074db074da074d9074d8074d7074d6074d5074d4074d3074d1074d0074cf074ce074cd074cc074cb074ca074c9,
  0x0e1290e1280e1270e1260e1250e1240e1230e1220e1210e1200e11f0e11e0e11d0e11c0e11b0e11a074f2074f1074f0074ed074ec074eb074ea074e9,
  0x0e1410e1400e13f0e13e0e13d0e13c0e13b0e13a0e1390e1380e1370e1360e1350e1340e1330e1320e1310e1300e12f0e12e0e12d0e12c0e12b0e12a,
  0x0e1590e1580e1570e1560e1550e1540e1530e1520e1510e1500e14f0e14e0e14d0e14c0e14b0e14a0e1490e1480e1470e1460e1450e1440e1430e142,
  0x0e1710e1700e16f0e16e0e16d0e16c0e16b0e16a0e1690e1680e1670e1660e1650e1640e1630e1620e1610e1600e15f0e15e0e15d0e15c0e15b0e15a,
  0x075090750807507075060750507503075020750107500074fe074fd074fc074fb074fa074f9074f8074f5074f30e1770e1760e1750e1740e1730e172,
  0x07536075340752e0752a075270752607524075230752207521075200751e0751d0751b0751707516075150751407512075100750e0750c0750b0750a,
  0x0755f0755e0755d07558075570755607555075530755207551075500754d0754a075490754707546075440754307542075410753f0753d0753c07539,
  0x0757e0757d0757c0757b0757a0757707576075750757307571075700756f0756e0756d0756c0756b0756907568075670756407563075620756107560,
  0x0e1890e1880e1870e1860e1850e1840e1830e1820e1810e1800e17f0e17e0e17d0e17c0e17b0e17a0e1790e178075870758507584075820758107580,
  0x0e1a10e1a00e19f0e19e0e19d0e19c0e19b0e19a0e1990e1980e1970e1960e1950e1940e1930e1920e1910e1900e18f0e18e0e18d0e18c0e18b0e18a,
  0x0e1b90e1b80e1b70e1b60e1b50e1b40e1b30e1b20e1b10e1b00e1af0e1ae0e1ad0e1ac0e1ab0e1aa0e1a90e1a80e1a70e1a60e1a50e1a40e1a30e1a2,
  0x0e1d10e1d00e1cf0e1ce0e1cd0e1cc0e1cb0e1ca0e1c90e1c80e1c70e1c60e1c50e1c40e1c30e1c20e1c10e1c00e1bf0e1be0e1bd0e1bc0e1bb0e1ba,
  0x075ad075aa075a9075a8075a7075a6075a20759e0759c0759b075980759507593075900758e0758d0758c0758a07589075880e1d50e1d40e1d30e1d2,
  0x075e5075e1075e0075df075dd075dc075da075d9075d7075d3075d1075d0075cf075ce075cc075cb075c6075c1075c0075bf075bb075ba075b7075b6,
  0x0760e0760d0760b076090760807607076060760407602075fe075fd075fb075fa075f8075f7075f6075f5075f3075f2075ef075ee075ed075ec075e9,
  0x0763b0763a07639076370763607632076310762f0762e0762c076280762707623076210761e0761d0761c0761a07616076140761307612076110760f,
  0x0e1e90e1e80e1e70e1e60e1e50e1e40e1e30e1e20e1e10e1e00e1df0e1de0e1dd0e1dc0e1db0e1da0e1d90e1d80e1d70e1d60764407642076410763d,
  0x0e2010e2000e1ff0e1fe0e1fd0e1fc0e1fb0e1fa0e1f90e1f80e1f70e1f60e1f50e1f40e1f30e1f20e1f10e1f00e1ef0e1ee0e1ed0e1ec0e1eb0e1ea,
  0x0e2190e2180e2170e2160e2150e2140e2130e2120e2110e2100e20f0e20e0e20d0e20c0e20b0e20a0e2090e2080e2070e2060e2050e2040e2030e202,
  0x0e2310e2300e22f0e22e0e22d0e22c0e22b0e22a0e2290e2280e2270e2260e2250e2240e2230e2220e2210e2200e21f0e21e0e21d0e21c0e21b0e21a,
  0x076600765f0765d0765b0765a07659076580765707655076530765207651076500764f0764e0764b0764a07649076480764707646076450e2330e232,
  0x0767f0767c0767a0767907677076760767507674076730767207671076700766e0766d0766c0766a0766907668076670766607665076640766207661,
  0x076a2076a1076a00769f0769e0769d0769c0769b0769a0769807697076950769407692076900768f0768d0768c0768a0768907685076830768107680,
  0x076c0076be076bd076bc076bb076ba076b9076b8076b7076b6076b5076b3076b0076af076ad076ac076ab076aa076a9076a8076a7076a6076a5076a3,
  0x05cb8066970630904ffa05b8906c280978d09698072310788d0827e077ee0853c0764c07691054c005509054ce06328057c30963f0554a076c3076c1,
  0x062d405df4075a40516b07b0605427053ed062520634c082ad06fb3061ca05965050b20888407ff1071ac06556051f9076ce06602080ae06848080fa,
  0x072480677f098810822c062730642c073ed0659107a17062dc08d2504f70064460767e067cf0767d0723807f62097380575d080190628a0977608dcb,
  0x052650891205305080de082de08c240508d095510868c078c5068d207ed1081800699c0688605e2e090a607eca0529e0534a074e304f34062cc0626e,
  0x076ec076eb076ea076e9076e8076e7076e6076e4076e3076e2076e1076e0076de076dd076dc076da076d9076d5076d3076cc076cb076c9076c7076c4,
  0x07714077130771207711077100770f0770e0770c0770a0770607705077030770207700076ff076fd076fb076fa076f7076f6076f5076f3076f0076ed,
  0x0773b0773907734077330773207731077300772e0772c0772b0772a07727077250772407723077210771e0771d0771c0771b07718077170771607715,
  0x0775c07759077580775707756077550775407753077520774f0774e0774d0774c0774b0774a0774907748077460774507744077420773f0773e0773d,
  0x05907072c80500d094a108d1d080cc08f880531705351060b2078910676f0720609c8d08c79066b4062a5062b105b9d099710582104fdd096f908584,
  0x06bd906bd50853d084d6078a705f7c07b140911906bd409f3b0903c08ff808e6606cf50752d07ef705d2907b280672c082ef05954088ab07119060eb,
  0x08fab08fa908fa80535e053d804fbf0624108d2c07f1608fb9097ad0965b0907f081c2058c108f9f05fc505f0a0655d095ed075f905e8705e0106bd6,
  0x0775e0775d070b30997c079c904e19067c4051b0051750644805bbe06ee806fd20658c05f6c0762a0522b0618b09cd6088680819805f6a068070904d,
  0x0778307782077810777c0777b0777a0777807777077760777507774077730777207771077700776f0776e0776d0776a077690776707764077600775f,
  0x077a6077a4077a3077a10779e0779d0779c0779b0779a07799077980779707796077950779407793077900778f0778b0778a07789077880778707786,
  0x077c8077c7077c6077c5077c4077c3077c2077c1077c0077be077bc077ba077b9077b8077b7077b6077b4077b2077b1077af077ae077ad077ab077a8,
  0x05e76075c5077e4077e1077e0077df077de077dd077da077d9077d8077d6077d5077d4077d3077d2077d1077d0077cf077ce077cc077cb077ca077c9,
  0x057e008865054fa0535c0635509a7306cca06e240818a081160823605e1b04f2f07b94094c20640f052c30535a06ce2094b5062e8064ad083e0073bb,
  0x060e8060ed06b8b08695053c20991008521083dc05f69091c708e290776c08d220624d06750088c10731c064e606016090e807c3f06b6505e0304e0d,
  0x078b4067e5083360832c053c9063d208e6d05c4206d4b0518c04fa707b560539508349066f9069fd07cd9064cd085cf06ca704ed308231082cd0707f,
  0x077ef077ea077e8077e6073160660c098a40961004ea7094f207f2008c170998b08749063ba0640008c7a067f4062c608be705dee05c9405bdf0643d,
  0x078190781507813078100780f0780e0780b0780a078080780707806078050780407803077fc077fb077fa077f9077f7077f5077f4077f2077f1077f0,
  0x0784807846078440784307842078410783f0783d07836078350783307832078310782f0782e0782b0782a07828078240782207821078200781e0781b,
  0x0786807867078660786507864078630786207861078600785f0785e0785c0785b0785a07859078580785407853078510784f0784d0784b0784a07849,
  0x0957f05e3805c1d0573a078830788207881078800787f0787e0787d0787b0787a0787907878078760787507874078730787207871078700786f07869,
  0x081e3090f406f8805f7b063a3064a40626f08f66070920543505de206f6e056320671d0949e0628408d850502105531075450655e05382080a00507f,
  0x05403079e409a8b0901e0627f08bda06f84060e907a0b04e58054480621006a59057ce079f0064910886c08d810964806c8905ff10666805c1808fb0,
  0x08e0c075740916c062bd05ba005d070866b051b205145070bd065a507fc508d6405c3a04f8809f7f0803b09a7005f1b08fdf06c600531906301075f4,
  0x0788b0788a078880788607885078840695a0966406ec1096cf0950408e87053a806a71051fa0521d081ed04e110778507ef804ec707b790610107a20,
  0x078b7078b6078b5078af078ae078ad078ac078ab078aa078a9078a8078a6078a4078a2078a00789e0789d0789907896078950789407892078900788f,
  0x078da078d8078d7078d6078d3078d2078d1078cf078ce078cd078cc078c8078c7078c6078c4078c3078c2078c0078bf078bd078bc078bb078ba078b8,
  0x078f6078f5078f3078f1078f0078ef078ee078ed078eb078ea078e9078e7078e6078e5078e4078e3078e2078e1078e0078df078de078dd078dc078db,
  0x05904089e606410077d7050a8078400790c0790b0790a0790907908079070790607904079030790207900078ff078fe078fd078fc078fb078f9078f8,
  0x06df305507091870693f066250578209524063760708a054390521b095ef05e8a05e6207a97075ae04e32055980823904f200693d07a7f05ddd063e3,
  0x07c97051d104e1b04ece05306056f1084710806a06b2108d500523a06b6408bcd074f70614808f9e096cc078c108328075b507ef0062330882207eaf,
  0x0642d095190632b063aa06413064ae078cb05bf805b580675107fe006dec07cb90760108106050ac05d140646707a9c07be108e7f04fc307c070918b,
  0x07915079140791207911079100790f0790e0790d0902e05f850888b08d3704ee306b8605e2606234050a306b790544605927062530762907b5408fbe,
  0x0792f0792e0792d0792c0792b0792a0792907928079270792607925079230792207921079200791f0791d0791c0791b0791a07919079180791707916,
  0x07951079500794f0794e0794d0794c0794b0794a07947079450794407943079420793f0793d079390793807937079360793507933079320793107930,
  0x0797c0797b07979079760797507974079730797207971079700796e0796c0796b0796a07969079660796407963079610795907958079550795407952,
  0x080c6063b8090f80535504e39062c50803d060200799207991079900798e0798d0798c0798b0798907988079870798607983079820797f0797e0797d,
  0x09053060bc07a3b0523005bfc0797705c9b0501208e48063630520006863083610515a0632105f53086cb05f3908bde06de1060ee04f4606c2e065e6,
  0x0573005e95062b505ae107fdf06da4072c407b1b0654c08fea06ef404f4e0582409093051f3077aa07b490767b0706f08e6c0768405f9705fb7076d7,
  0x053fc0788906bbf06dc005960060e605e970753804f4307535057ab0975b05178070b90789806ec706382098a007f140901205f1f05e1d07b2c08482,
  0x0799d0799c0799b07999079980799707996079950799407993053e008c0d08fed087760789f0723908dcc08c03094930540a0638905201051cb096d5,
  0x079b7079b6079b5079b4079b2079b1079b0079af079ae079ad079ac079ab079aa079a9079a8079a6079a5079a4079a3079a2079a1079a00799f0799e,
  0x079e0079de079dd079dc079db079da079d9079d7079d6079d4079d3079d0079cf079ce079cc079ca079c8079c7079c5079c4079c2079bf079bc079b8,
  0x07a0807a0707a0507a0407a01079ff079fe079fc079fa079f9079f7079f6079f5079f4079f3079f2079f1079ee079ec079ea079e8079e5079e2079e1,
  0x04e2208ba205b9a0952d09f0e0987609489053ee076ef04e0107a1c07a1b07a1907a1807a1607a1507a1307a1207a1107a1007a0f07a0c07a0a07a09,
  0x0583508bfb072ec0728a06bd207763090fd075d80901708c460966106597062960515c06d1e051bb0606b04f970680b052a8061c208463051ac04e1c,
  0x056e40987f0656608e7205428058a905bf90961f051510580607f0e065ad06bb50953b077ed07aef0599206e2105ea60809a095400675c08d4c07779,
  0x053840607605a2508bb90989d04fc409e4505ce8086fe05815060f0052410823508dfa0673508eb20579b0593a0591a054c60638709041076fe0949d,
  0x07a2b07a2a07a2907a2807a2707a2607a2507a2407a2207a2107a1f07a1d04e8c06d310997505c14080330513f0800c060690997f091020904f0627c,
  0x07a4b07a4a07a4907a4807a4707a4507a4407a4307a4207a4107a4007a3e07a3a07a3807a3607a3507a3407a3207a3107a3007a2f07a2e07a2d07a2c,
  0x07a6507a6407a6307a6207a6107a6007a5f07a5e07a5d07a5c07a5b07a5a07a5907a5807a5607a5507a5407a5307a5207a5007a4f07a4e07a4d07a4c,
  0x07a8b07a8a07a8907a8707a8507a8207a7e07a7d07a7c07a7b07a7507a7307a7207a7107a6f07a6e07a6d07a6c07a6b07a6a07a6907a6807a6707a66,
  0x0756a05e06085e9073d006cd50960004e4f04f1007b4f07f5a053d108d3007aa207aa107a9e07a9b07a9a07a9907a9407a9307a9007a8f07a8e07a8c,
  0x07eba08bbf04eff059a8096320623f080aa065b9082b30574a06cdb0996d072af08d290830308fd4053cd070e6051e107e4109492077fe06a0a07ffb,
  0x0594b07c8906c7e0711a0575f07eb70520606c1b054290915a082ac08d3906cb805e9f080ba0542008bfd0532a080a5098de055610975e083f20653e,
  0x080a4065770592b0542604f5b051e40594908bbd07f1d051af09022070fd075af098ce0950b05cf008702067ab05c0104e3007caa0612405fff04efd,
  0x07ab607ab507ab407ab207ab107ab007aaf07aae07aab07aaa07aa907aa707aa407aa30670d04fd804f0f07b2606c1f05e4508f90062c20627605b75,
  0x07ad007acf07ace07acd07acc07aca07ac907ac807ac707ac607ac507ac407ac307ac207ac107ac007abe07abd07abc07abb07aba07ab907ab807ab7,
  0x07af207af107af007aee07aec07aeb07aea07ae907ae807ae707ae407ae207ae107add07adc07adb07ada07ad807ad707ad507ad407ad307ad207ad1,
  0x07b1807b1707b1607b1307b1207b1007b0e07b0d07b0c07b0907b0707b0507b0207b0107b0007afe07afc07afb07af807af707af607af507af407af3,
  0x05e9c081510812f065a7091dc04fef08f850629a0752b05f17088b10798f06daa06d6e07b2d07b2907b2707b2307b2207b2107b1f07b1d07b1c07b1a,
  0x09499069820653908be50560e056760549007f1a059870964408ba305bcc08d1f08179072360961c04ed8050850590d08d4b089860526f08d7408150,
  0x0768b07bd90676006e2f05c9707eb20809b07f38094a20521a0518808d6306562079c60611f08d760809d07aff067d1067460751805e7206e89076d6,
  0x04e2a094ec0969409601086e40683c0845b097690527207599080f309e3d062080640106b4c054e50544a07a3f095500641e07cd507f940818f09ad8,
  0x07b4407b4307b4207b4107b4007b3f07b3d07b3b07b3907b3707b3607b3507b3407b3207b3007b2f07fb905e9a066f40801508ddf0683907ed905404,
  0x07b6d07b6c07b6b07b6a07b6907b6807b6707b6607b6507b6407b6307b6107b5f07b5e07b5c07b5907b5707b5507b5307b4e07b4d07b4a07b4807b46,
  0x07b9107b8f07b8e07b8c07b8b07b8a07b8907b8807b8707b8607b8407b8307b8207b8107b7f07b7d07b7c07b7a07b7807b7607b7407b7307b7007b6f,
  0x07bbb07bba07bb907bb707bb607bb507bb307bb207bb007baf07bae07ba507ba407ba307ba007b9f07b9e07b9b07b9a07b9907b9807b9607b9307b92,
  0x062f106c5e05de905f1305bab0516c08eac04f9b09f9a0606d0529f0653b05de5068970803f057c207bc407bc307bc207bc007bbf07bbe07bbd07bbc,
  0x08c3709aa8086ca053e409f13059d105b6406cbd04f3007b8d05495083c708f9c0591f08d2d06784057a2072d7082df06c9f052fe094a90517108d21,
  0x0704c060ef07f500998607ba1089c2051a005b9805173068fa0602a062d004e56089020630205be105250074dc0522e096c7056fa0987e06545080a1,
  0x09505068cd06eda08f8a0523d08d3508dea067dc068420767808be109b3c08f68095fa09f9f05f52078450572d089c4074700901b05e7f0514908d2f,
  0x07bde07bdc07bdb07bd807bd707bd607bd507bd407bd207bd007bcf07bce07bcd07bcb07bca07bc907bc807bc5054c808fc7088f90679c056fd090ed,
  0x07bff07bfd07bfb07bfa07bf907bf807bf607bf507bf407bf307bf207bf007bef07bed07bec07beb07be907be807be707be407be307be207be007bdf,
  0x07c1c07c1b07c1a07c1907c1807c1707c1507c1407c1307c1207c1107c1007c0e07c0d07c0a07c0907c0807c0607c0507c0407c0307c0207c0107c00,
  0x07c3907c3707c3607c3507c3407c3307c3207c3107c3007c2f07c2e07c2d07c2c07c2b07c2907c2807c2507c2407c2307c2207c2107c2007c1e07c1d,
  0x07ff007f550558a051fd05bd206db50542b097e9090af061a80916309a8705bb304ea506c2606d7705b6909ab807c4207c3e07c3d07c3c07c3b07c3a,
  0x083cf083770559d0547506d69053f7080170597d090dd06beb08c6a0568e058d50822a0676d0592f06c4906c570710a0608d061be065f10634d064bc,
  0x0886106a2a04ea8054fc06068072e005f88075d509ed10563f08d3a09e640891008d6b06db806cb30960208c89076d20540804f550548c079be06838,
  0x080e10846b058f60745a05ffd04e4e0547c0540e050190539a0543c0733404faf0558907ea205f1805b8f06d2a09e3f08679070d8054c408f7006052,
  0x07c5707c5607c5507c5407c5307c5207c5107c5007c4f07c4e07c4c07c4b07c4a07c4907c4807c4707c4607c4507c4407c4306e5607cca072d008774,
  0x07c6f07c6e07c6d07c6c07c6b07c6a07c6907c6807c6707c6607c6507c6407c6307c6207c6107c6007c5f07c5e07c5d07c5c07c5b07c5a07c5907c58,
  0x07c8d07c8c07c8b07c8a07c8807c8707c8607c8507c8407c8307c8207c8107c8007c7f07c7e07c7a07c7907c7807c7707c7607c7507c7207c7107c70,
  0x07cb607cb507cb407cb007caf07cad07cac07cab07ca907ca807ca707ca607ca307ca107ca007c9b07c9a07c9907c9607c9407c9307c9007c8f07c8e,
  0x06dee0600005f8a069d008bdd05316052120753b06ed10733e0534e054d7082b10623706caa04e92062a40552c0864e05f2707cbb07cba07cb807cb7,
  0x060f6051f00768707c2708757078fa09ec40614c0835205e7b05ba606da30711508c62075ea05524060a30636207f1308fd806853073af06b220574f,
  0x08bb306c47070e904f1a079fd08d3f06666060e005349061670609406bc1056de086d40606205fbd08f89063250707008c0e0604d05e4c066430714c,
  0x07a3d075780673a057fa0573e051fb0797808d270970d060d106216083b70706b04f1906d3b08c4106df706d5109b4205a5a0660f0836407ed808bf2,
  0x07ce207ce107cde07cdd07cdb07cda07cd807cd407cd307cd207cd107cd007ccf07cce07ccb07cc907cc607cc407cc307cc207cc007cbf07b95079ef,
  0x07cfe07cfd07cfc07cfa07cf907cf707cf607cf507cf407cf307cf207cf107cf007cee07ced07cec07ceb07cea07ce907ce707ce607ce507ce407ce3,
  0x07d1707d1607d1507d1407d1307d1207d1107d1007d0f07d0e07d0d07d0c07d0b07d0907d0807d0707d0607d0507d0407d0307d0207d0107d0007cff,
  0x07d3407d3307d3207d3107d3007d2e07d2d07d2c07d2a07d2907d2807d2607d2507d2407d2307d2107d1f07d1e07d1d07d1c07d1b07d1a07d1907d18,
  0x07ea705ac90537306c72075be06025053ca096c607c4d08f91068d8067810540907f0907ee9059ec09e2108ba506fc008ff9099650808c07d3607d35,
  0x0560907eaa07ee7059930964505fcc065e208bb008ba105bc205bc406d4e060b8052420796d04f0e05b630518006280084df05df10810a051e006324,
  0x0517c0714e095f407b3a05c160575a076d106b7c05ac109a7e067b604ef707a3c05047094be0753208d3e0988a0835a052a005bb604f7305939067b7,
  0x04ef607bad0952e089c108d3108df509274069db08350051cf0526a04fed07b8006361062e307877078b1067ec068c00832707f040597808270080a9,
  0x07d4e07d4d07d4c07d4b07d4a07d4907d4807d4707d4607d4507d4407d4307d4207d4107d4007d3f07d3e07d3d07d3c07d3b07d3a07d3907d3807d37,
  0x07d6607d6507d6407d6307d6207d6107d6007d5f07d5e07d5d07d5c07d5b07d5a07d5907d5807d5707d5607d5507d5407d5307d5207d5107d5007d4f,
  0x07d8007d7f07d7e07d7d07d7c07d7b07d7a07d7907d7807d7607d7507d7407d7307d7207d7107d7007d6f07d6d07d6c07d6b07d6a07d6907d6807d67,
  0x07d9807d9707d9607d9507d9407d9307d9207d9107d9007d8f07d8e07d8d07d8c07d8b07d8a07d8907d8807d8707d8607d8507d8407d8307d8207d81,
  0x0790106912085490964d091710532008bb205956068680848b0758606c5f06d4605c06059dc050f505efa06da706e8506e100996f052510823005065,
  0x053eb08f8308f7f09175065590527f07ede07f340997a089d2072e10811a04fa5077eb094f006405056bc05a0709a8406d47090ca04ea4080f607126,
  0x0501f0754c082a5085c906212059d0089e307ed306d0107aed0776b06377067700685408282052ab0622a0963608857079f807686063a5063ed07a96,
  0x07d9a07d9906d78070ec08fd1079810664b0977308fdb08c2804ec50952607d270895f06d2504eca091d1065a407b4b05dfe05c4a08beb075a504ecb,
  0x07db407db307db207db107db007daf07dad07dac07dab07daa07da907da807da707da507da407da307da207da107da007d9f07d9e07d9d07d9c07d9b,
  0x07dcc07dcb07dca07dc907dc807dc707dc607dc507dc407dc307dc207dc107dc007dbf07dbe07dbd07dbc07dbb07dba07db907db807db707db607db5,
  0x07de407de307de207de107de007ddf07dde07ddd07ddc07ddb07dda07dd907dd807dd707dd607dd507dd407dd307dd207dd107dd007dcf07dce07dcd,
  0x052b205c3d07dfa07df907df807df707df607df507df407df307df207df107df007def07dee07ded07dec07deb07dea07de907de807de707de607de5,
  0x07ade07adf09756075c905f840955c0656c0588309759098880666f08b6604e9507ecf07cb307cbe060ca04eac09cb8066760775b0830e0516208346,
  0x075bd072d9062d8097a00759a05c310548e08205081fc065e706551053a90915204e5d0707804e45097ed0739607ea007a76063ea07a98070af051c0,
  0x05a1f09e430635005267070ac060e7053e504ff10952f08e1e08ddd0517705de80636e062d20805a06cae04e3e077e90548005c40083ca09a7905c45,
  0x07dfe07dfd07dfc07dfb05cfb0541b0519b094a7083cc0574707edd08bc0051b3089c9072350501406398062890652b0648507ee2053770773705026,
  0x07e1607e1507e1407e1307e1207e1107e1007e0f07e0e07e0d07e0c07e0b07e0a07e0907e0807e0707e0607e0507e0407e0307e0207e0107e0007dff,
  0x07e2e07e2d07e2c07e2b07e2a07e2907e2807e2707e2607e2507e2407e2307e2207e2107e2007e1f07e1e07e1d07e1c07e1b07e1a07e1907e1807e17,
  0x07e4907e4807e4607e4507e4407e4307e4207e4007e3f07e3e07e3d07e3c07e3a07e3907e3807e3707e3607e3507e3407e3307e3207e3107e3007e2f,
  0x090e106d5a07ae304fca07e5d07e5c07e5b07e5a07e5907e5807e5707e5607e5507e5407e5307e5207e5107e5007e4f07e4e07e4d07e4c07e4b07e4a,
  0x080030709504ea2062970625b07ce00617705eb70770b0780d0574e052d80582a0520a06168051ef06977063e905f00054af05361054960558009a8f,
  0x0542d0575106073057a605543080af08bfe05ba20523b0514b06e34053ef054b3058f3079d109897078d5068f5067ef082db0577709760070e4062f7,
  0x05feb04fa907b7705757080ef08de80630e057ae05938088e405e9309177082e607a9f054ed067af05bc706263053e3062a0063a705b540605007a7a,
  0x07e6307e6207e6107e6007e5f07e5e0508009b410594e0847507aa505cbf076d404e8f051b5065f707736077ff06846072c207b500532106b3e05bbd,
  0x07e7b07e7a07e7907e7807e7707e7607e7507e7407e7307e7207e7107e7007e6f07e6e07e6d07e6c07e6b07e6a07e6907e6807e6707e6607e6507e64,
  0x07e9407e9307e9207e9107e9007e8f07e8e07e8d07e8c07e8b07e8a07e8907e8807e8707e8607e8507e8407e8307e8107e8007e7f07e7e07e7d07e7c,
  0x07f3c07f3b07f3907f3707f1e07f1007f0a07ef907eec07ee407ed607ebc07ebb07eb407eae07e9e07e9d07e9c07e9a07e9907e9807e9707e9607e95,
  0x06346066060576406e83061270998807f5307f5207f4f07f4e07f4d07f4c07f4b07f4a07f4907f4807f4707f4607f4307f4107f4007f3f07f3e07f3d,
  0x08c3006f9c051700961107bee062e60680f05a6a084dd08d5606765083b10556608fa30814a0872105587062c9057830961405ed306269062ec056f0,
  0x04e50052d206d9d070d90916a059e504f6c0800107262052b30635e06d6a06717090ce05eca072fc069940740506ee5070c207f06061d2089c8063fd,
  0x0674e0740606f13079bb072f807bf109ece07281068a805398051b70695e068f106cea07c7b0808b064c2057920512107d2f078ca0857e0956d096f7,
  0x07f6307f6007f5e07f5d07f5c07f5b07f5907f5604fd004f8b0508805229053860783e052b10538904e3d068170540f08354083890793c09ca4091cc,
  0x07f8507f8407f8307f8207f8007f7f07f7d07f7c07f7b07f7a07f7807f7707f7607f7507f7307f7007f6f07f6d07f6c07f6b07f6707f6607f6507f64,
  0x07fa807fa607fa507fa307fa207fa007f9c07f9b07f9907f9807f9707f9607f9507f9307f9207f9107f9007f8f07f8d07f8b07f8907f8807f8707f86,
  0x07fcb07fc907fc807fc707fc607fc407fc307fc207fc007fbe07fbb07fba07fb707fb607fb507fb407fb307fb107fae07fad07fac07fab07faa07fa9,
  0x054e9074830529b096b606ca507c9207acb075e207fe307fe207fde07fdd07fdc07fdb07fda07fd907fd707fd607fd307fd207fd107fd007fcf07fcd,
  0x0667e091cf08f8604e240826f07cb106881051c907cae07ec3070bc0604b094fe081380655b05e1806d9f0601c05ec90957008fde083b20805404fe9,
  0x09716078f706797074330730e052a3070c8088c2052170659905ed6095630648204e8606f6608fbd05be5071ce07597050da0804a064a908c0504eae,
  0x0740906e9c04ee4053e60988605cad0967507075051cc07f9a04f36094c309f84096f6083f1073b2062ce0541d08d41051db06dcb09cde090bb04e34,
  0x07ff407ff207fef07fed07fec07feb07fea07fe807fe707fe407abf07b3c054990804b09f990516d067f306d410762405218075590998f0786b069b4,
  0x080210801f0801e0801d0801b0801a08013080110800f0800e0800a0800908008080070800207fff07ffe07ffd07ffa07ff907ff807ff707ff607ff5,
  0x080500804f0804e080490804808047080450804408041080400803e0803c0803a080390803408032080300802f0802e0802d0802c0802b0802408023,
  0x0806e0806d0806c0806b0806808067080660806508064080630806208061080600805f0805e0805d0805c0805b080590805708056080550805308051,
  0x0964b06f0f07bd30640205a040697c09647062e205784096860807d0807c0807b0807a0807908078080770807608075080740807308072080700806f,
  0x04fa3094dd0541509a740622e0964605f550798406f5e09e7f08d4208def097320788c09e9309c810864f05364063b30708905e900988505362082a6,
  0x07eb606ca604ed104f2608f6e062a107565063a004e710537506ee605b6a0631b05ce607eff06ee40738705f8b06c2f0865107f1505c6105c65065c5,
  0x04e70057cb054170561b09a8209a6c08682078010739b09ebb0598807edc09a8606d1b0843d088f809aa107ba9095230903b07f57087ba0841d08bba,
  0x0809208091080900808f0808e0808d0808a080880808508082080810807e06f2b06162066fc0851306ee1086ee09992077920810908fc80535609ea6,
  0x080cf080cb080ca080c9080c8080c7080c5080bb080b9080b8080b6080b5080b3080b0080ac080a8080a7080a6080a30809e08099080970809508094,
  0x0810508104081030810108100080ff080fe080fb080f9080f7080f5080ee080e6080e3080e2080e0080df080d8080d5080d4080d3080d2080d1080d0,
  0x0812d0812b0812a081290812808127081260812508124081230812208121081200811f0811d0811c0811b0811908117081150810c0810b0810808107,
  0x077db06bdb0951a083050732b083bd05fd906c13076f20832b0829208c290813f0813d0813c0813b0813a0813908137081350813408133081300812e,
  0x05a9a059b905bd00662707f8e06bcf0954105a920770906ca1071640970909176068850679a073ab04e4808d3808c8c05e3d05192083020536f094c6,
  0x05bc60871c06ccc089c5079d807c7305f2508c1c08ff707cdc097610919a0772f05b5f068a60731b09530076df06aac084990840c04eec095f7095e8,
  0x0654f076bf062bf06c110706d085110599905e9906e3a079d2085d007784063cf082d70976207f0505a29052c90514d0519507ef507720068c905e42,
  0x0815708156081520814f0814e0814d08149081470814508144081430814208141081400647808c2c0547d0540d094ed09e230879f0660e095fd060af,
  0x08183081810817808177081760817508173081720816f0816c0816b0816a0816808166081640816308162081610815f0815e0815d0815c0815b08158,
  0x081a4081a2081a1081a00819f0819e0819a08199081970819608195081940819308192081900818e0818d0818c0818b0818908187081860818508184,
  0x081c7081c5081c4081bf081be081bd081bc081b9081b8081b7081b6081b5081b4081b2081b1081b0081af081ae081ad081ac081ab081a9081a7081a5,
  0x06f2006cab09ed8058a8083ab0672b062b909b5406469078e80819c06a210861106479081d3081d2081d1081d0081cf081ce081cd081cb081c9081c8,
  0x094a005450054ea062ff07a460726707766076ee0672806155052df05e55066ae0589306bcd059c604ea907261062c7067d00725f08c0b0964c05bde,
  0x09713059ae080fd05ae905185099810546206dd6095f90607c0811106320056ca096be075370535705948080100597604e4306c1607eb305a1c090a3,
  0x0556e05b7d080420634f05c3f09e1f0917f05a1805ff50637b064b5078be05e74062c80852b06eba090060817b0533f04f60062df05c3c06ce50502a,
  0x081e4081e2081e1081e0081df081de081dd081dc081db081da081d9081d8081d7081d6081d5081d405b81051dd072de067e0060a806d850954d0954a,
  0x0820b0820a08209082080820708203081ff081fd081fa081f9081f8081f7081f6081f5081f2081f1081f0081ef081ee081eb081e9081e8081e6081e5,
  0x082400823f0823d0823c0823a082320822e0822908227082260822508224082200821d0821a082190821808217082160821508213082110820f0820e,
  0x082600825e0825d0825c0825b0825908257082560825508254082530825208251082500824e0824d0824c0824a082480824608245082430824208241,
  0x08650066960597306012052aa0597405f040519c06d530811307ebd094ae0626d0725b06cde062e70826908267082660826508264082630826208261,
  0x06e4305f980724c06392062cd074360601505e150722c08db40556a06ca40507605455085d506bb409e2506b27054e608bfa07cef061e60632a0759f,
  0x057f9080da0547806ce108dd10888d070ae05228054860629b080d60802a065c105e9e04e53053db0522407554076fc078d0076d806f580650006d3e,
  0x078120576f078b00636709e4f0670b081a807bf70787c068da084ec05f6d06f8e070f9062a807830076c6055b706c9b04f690914d0966a08d54088f4,
  0x082890828708286082850828308281082800827c0827b08278082770827608275082710826d0826c0826b0826a06bd70743505288062ab0627909739,
  0x082c5082c3082c2082c0082bf082bc082bb082ba082b6082b5082b2082a7082a3082a2082a00829e0829b0829a08296082950829408293082900828c,
  0x082fd082fc082fa082f8082f6082f5082f3082f2082f0082ee082ed082ec082ea082e9082e8082e7082e2082dd082da082d9082d6082d0082c9082c6,
  0x0832a08329083260832508324083230832208321083200831f0831e0831d0831908318083160831308312083100830d0830b0830a08300082ff082fe,
  0x0648707968074e206f02098d809a97072470504f07bc708b6c05c41050fb075de05339076ae075b20813e055640833d0833b0833708332083300832e,
  0x0525607c9508feb09b440783405a460988706cfc0576105c4f08bc4074f6051ed05e730840d082f90576a04e5208058054c108d2b09891062fc077a5,
  0x067d206f06051c404e03059bb0621a0681606b3a0671f07011066dd08c3106d660666e0570306734057d4084b2083e9084610838604ec6094fa06251,
  0x05f0308fc406c14056680780c059510542f04f0104e5e05c8208d7709a910794107948065d709f500811005d0e0756606b6705947068cb0517606c8f,
  0x083620835d0835908358083570835608355083530834e0834d0834c0834b0834a08348083450834408342083410833f0833e0639008bab06ce306c7d,
  0x083900838f0838d0838c0838b0838a083880838708384083830838208381083800837f0837e0837a0837908376083750837408373083720837108370,
  0x083bf083be083bb083b5083af083ae083ad083ac083a7083a6083a5083a4083a3083a2083a10839f0839d0839a083990839708396083950839408391,
  0x083e7083e6083e4083e3083e2083de083db083da083d9083d7083d5083d3083d2083d1083d0083ce083cd083cb083c9083c8083c6083c4083c3083c2,
  0x08c3406d450906306f5c0524d094b3094b109ed404e7e08c2604edf07b7e08fc105343094c50948e062660727506d3d06070083ed083ec083eb083e8,
  0x07fd8064ac0979805de704fa804e54077a70686506084065720953906a47062a205f3a085370589907f8c081540545b067aa06b4906b2005d4c05811,
  0x0537f0503e06c2208f7b0975206c8105bdd079bd064d2082b9052e407434079e604eb204fb5094a607a830602f04e14083040520707a8d04fcf05ced,
  0x05c4808eaf066f2086c60533a08d8b06cc50914b056da06c4207403090b104e18079cb07a770743c05e8608bf709877060c506c3006674064ce06e05,
  0x0841308412084100840a084090840808407084050840208400083ff083fe083fc083fb083fa083f7083f6083f5083f4083f3083ef083ee06e2009a71,
  0x084340843308432084300842f0842e0842d0842c0842b0842a08429084230842208421084200841f0841e0841b0841a0841908417084160841508414,
  0x084500844f0844e0844d0844c0844b0844a0844908448084470844508444084430844208441084400843f0843e0843b0843a08439084370843608435,
  0x08479084770847408472084700846f0846e0846a084680846708466084650846408462084600845f0845e0845d084580845608455084540845308452,
  0x069b709e4a05374076380709407f3a0529d05238072ac062f3075ca0516806cc90919b06743098a705708053bb08da309f8b05a36053d60847c0847b,
  0x04efb097e705fcd04eba04ec1058ec070ed060f907ed5062700997608ba9056b706518058e4074e4067d305189071c30713607fa4088d9096c00786e,
  0x05b7a05112088150833908089067d4063c90519707ed205bb906eb6071940878d08363084c9083380620e065e504ecd0625407eab0598a0520308ba4,
  0x053c104e0908d5b0585e09cc30816e0842806d120649205f31082e506da6095f0095100745e0854a0962e08f6f089250516506c5d04e7308fb105982,
  0x0849e0849d0849b0849a08498084960849508494084930849208491084900848f0848d0848a0848608485084840848308481084800847f0847e0847d,
  0x084be084bc084bb084b7084b6084b5084b3084b1084b0084ae084ad084ac084ab084aa084a9084a8084a7084a6084a5084a4084a3084a2084a00849f,
  0x084e4084e2084e1084de084dc084db084da084d9084d8084d7084d5084d4084d2084cf084ce084cc084cb084c8084c7084c6084c5084c3084c2084c0,
  0x085020850108500084fe084fd084fb084fa084f9084f8084f7084f6084f5084f4084f3084f2084f1084ef084ee084ed084eb084ea084e9084e8084e7,
  0x07b5b0715e05565050bb07eb106c990523906740078020838e050e7068ee06da9082720745f05ac20626b09a9a0641404e27055d3068510656304f1e,
  0x05c1a04e0a0664c08d4f0554604f240589207f2e0624706c5505584081b308d61064c509655095ea0886b0717d0522005c7106749082eb073ca06652,
  0x08bbe0793e06d890615105c040644408d660820d0820c086c708d4a0596207ecd090b5054e805c11097f6052fa0828d070e707a0d0634e068a2088f3,
  0x085040850307ef30534707272075250751f058f006e170614e080be0751a05a7605ba106c880795e07ec505a2006df108eab04f380547b0753307837,
  0x0852308522085200851e0851d0851c0851b085190851808516085150851408512085100850f0850e0850d0850b0850a0850908508085070850608505,
  0x08545085440854208541085400853f0853e085360853508534085330853208531085300852f0852e0852d0852a085290852808527085260852508524,
  0x085630856208561085600855f0855d0855c0855b0855a08558085570855508554085530855208551085500854f0854e0854d0854c0854b0854708546,
  0x076db0770108581085800857f0857d0857c085780857708576085750857308571085700856f0856e0856d0856c0856b0856a08569085670856608565,
  0x05c4e04f7f077e2053f208bc605b9e08680098df04ec0065f6062fe077f3053410867105c3808bd706e7f065bd072ee0593105e0805723080dc05269,
  0x05ba40604305e0206c0f09970091ca04f8d04ed5090020566c055dc0662f052bf0901d08a93062ed04e8b067ff04e16058eb0793a05f0f059cb09a76,
  0x08d4e04e660758f06dd108212053d408f930629206b8a068b3067a20852c0517d07626053d70552e0638805bff05b88099960624b0653608bd5089c6,
  0x0858808586085830858206f310657005eb60588507ad60620d0675f0681108ff00672f05c5e09f2009ecd0870007f72066d906691085af0719f05b70,
  0x085a3085a2085a1085a00859f0859e0859d0859a085990859808597085960859508594085930859208591085900858e0858d0858c0858b0858a08589,
  0x085c4085c3085c2085c0085bf085be085bd085bc085bb085ba085b8085b6085b5085b4085b3085b2085b1085ad085ac085ab085a9085a7085a6085a5,
  0x085e2085e1085e0085df085de085dd085db085da085d9085d8085d7085d6085d4085d2085d1085ce085cd085cc085cb085ca085c8085c7085c6085c5,
  0x064540800d0523706055085f8085f7085f6085f5085f4085f3085f2085f1085f0085ef085ee085ed085ec085eb085ea085e8085e7085e6085e5085e3,
  0x0601d0563606495065af070c1067140785508bf40821c0987a077ac0542e07a0e0776106c3408c010723d053cc0971c062f40681305e050752908870,
  0x055fd064de082580641c08bf508bbc05b8b090010988206002080380677e05df30997204f3c04f3a056db055e305bfa0808606b7b04e1d053f8079c1,
  0x0904207a5705c810788e09ad307ee50968f0968b0867d07b970849c091780808308bc905bbf06eaf05851050f307c9f0901f07d2004fd709165082cf,
  0x08600085fe085fd085fc085fa085f9058540597905b8304ed60584c062400950107d220741007f2905506068ad084d107b0b0635f05b590795f096a7,
  0x0861b0861a08619086180861708615086140861308612086100860f0860e0860d0860c0860b0860a0860908608086070860608604086030860208601,
  0x0863508634086330863208631086300862f0862e0862d0862c0862b0862a08628086260862508624086230862208621086200861f0861e0861d0861c,
  0x0865508653086520864c0864b0864a086490864808647086460864508644086430864208641086400863f0863e0863d0863b0863a086390863708636,
  0x082d4080ce08e0f08e4b0631e0736d0866a0866908668086670866608665086640866308661086600865f0865d0865c0865b08659086580865708656,
  0x053f9063a2078b30889206bef0576608c0808c2d06f6d075f006a800575b06ee90762b08d2a0644a0574d06c70060010592a0915e06cf0053f0062ac,
  0x08ba80967606dd809003068430840407ee606ed406d9b0638f070eb08d9f06dcc08eba0501807cd6055100819b068e0058020642a0585806c64070ad,
  0x0586b06dfb0592905c490524306d95060d50568f066ff04f530557c08e4409898063d00951108e2205254068af08a8a075bc0817e085e40727905957,
  0x0867608675086740867308672086700866f0866d070c30542c0538505e16094c108d3408df30773a08fe2067610631108146082140606c0751c07530,
  0x086a00869f0869e0869b0869a08699086980869708696086940869208691086900868f0868e086890868808687086860868508684086830867808677,
  0x086cd086cc086c8086c5086c3086c2086c1086bf086be086bd086bc086bb086b9086b8086b7086b3086b2086ae086ad086ab086a6086a5086a2086a1,
  0x086fa086f7086f6086f5086ef086ec086eb086ea086e8086e7086e6086e5086e3086e2086e1086e0086dd086dc086da086d7086d6086d5086d3086d2,
  0x0901a082470633a05ead04ead0505c05ef706c40087160871408711087100870f0870e0870c0870b08706087050870408701086ff086fd086fc086fb,
  0x05c6006d820901405f92056fe07a81079c3051f80900f059340629505077075db07edf07b52063450687607ae505f64094dc0540c077b30916e06850,
  0x062d3059a50692d09a7c09a6e0964009e350813106258062d6081c005c6f0541e090000892a087150817f09893063a8056e206e4d05154054100571f,
  0x05b9b060cb076960665a0633d0789705b8c070f704e380987d073a906e7e05f2f08c4c0591606b6a0889c074e605a0306d3c086d9054c7063160553e,
  0x0872a08728087270872608724087200871f0871d0871b0871905a010598405fd80671b065fa05f8007f510678904ea10738b06c6a0815504e0705a49,
  0x0874d0874b0874a087460874508744087430874208741087400873d0873c0873a087390873808736087350873308732087300872f0872d0872c0872b,
  0x0876d0876c0876b0876a0876908768087670876608762087610875f0875e0875d0875c0875b0875a087580875608755087540875208751087500874f,
  0x087940879208791087900878f0878e0878c0878a0878908787087860878408781087800877f0877a087790877808777087750877308772087710876f,
  0x04e3a060df0552f056f40684508fdd097e60537105fae05dcd087a4087a3087a2087a1087a00879e0879d0879c0879b0879a08799087980879608795,
  0x06e290761f0536b0617005c0908c1306e2d04f4d09b4f05582080c30754f054730851a0672a07eac05c3e04f2a04f1f059d40840e082c707ef406f4d,
  0x04e4c094a80545c05deb06c83063e105367065a10621107a9d06da1087170631d074ee07fc1055e1095ee07d0a07a330543b07eb9095fb065870868a,
  0x0609f052a1052ff0726906664096fe0620a0575e04fae04f0d0821e053480634204e9406b6606bcb054340543e068a70829c065e005c4b08bec06c61,
  0x087b7087b6087b4087b2087b1087b0087ae087aa087a9087a7087a6087a50727a09521054380563b06670077fd078520897f06790071990661408bef,
  0x087d8087d7087d6087d5087d4087d0087cf087ce087cd087cc087c9087c8087c7087c5087c4087c3087c2087c1087bf087be087bc087bb087b9087b8,
  0x087f5087f4087f3087f2087f1087f0087ef087ed087ec087eb087e9087e8087e7087e6087e4087e3087e2087e1087df087de087dd087dc087da087d9,
  0x08811088100880f0880e0880d0880c0880b088090880808807088060880508804088020880108800087ff087fd087fc087fb087fa087f8087f7087f6,
  0x0728006c5006eaa070ef07184060dc059150819d0608905e0c0606f07a0008823088200881f0881e0881d0881c0881a0881908818088170881408812,
  0x0590f053a604e0b072ed04fa005ce10668708f960971e053230867e0778e07ec60620f0969907cfb06d17094e30559c05ab304e6005e2d088ad06a84,
  0x05baa07fa1099850817a053bf0732e073b0096690663e05acc05f2606d8e095f2082370885408d24054b807ea409c9c04ed905148095280638005413,
  0x0842708c6105411050cf06a6105df70987904eab054cd060f308be60796507fd404e6106e580894407bb10999909576053a2076f807ebf0965009677,
  0x08831088300882f0882e0882d0882c0882b0882a0882908828088270882608825088240665306dc605bb506d8809500056a3054ee0524a097040785d,
  0x08851088500884f0884e0884b0884a088490884808847088460884308842088410883f0883e0883d0883b0883a088380883708836088350883408833,
  0x088790887808876088750887408873088710886f0886d0886a0886708866088600885f0885e0885d0885c0885b0885a0885808856088550885308852,
  0x0889e0889d0889b0889a08899088980889708895088940889308891088900888f0888e0888c0888a08889088870888608883088800887c0887b0887a,
  0x0631f0534f0978b0874e06b4704e9b069540654807b1105578080960682105b5d05c0f088aa088a9088a8088a7088a6088a5088a3088a1088a00889f,
  0x0884504fe105fc305ffb065b008f9b06b230950c082af085aa05c5108c2206cfb06cc4061c8087f905378068b00519908c10080c10659c090aa0643a,
  0x04fee04f110718a096c406c7905308080f8051f605144059d3060270674f05e78091920884c090a205f620578b0521105174060fa07329081650661f,
  0x05a7f07d6e060640755c05e8f065ed053d909157084c408bb805f900987b056180865a097000620c0589f07ee308896079c009508055c50673d07f9e,
  0x088bf088be088bd088bb088ba088b9088b8088b6088b5088b4088b3088b2088b0088af088ae088ac07384065cb060ac05ba3055a708f6907eed07eea,
  0x088e7088e6088e1088e0088de088dd088dc088db088da088d7088d6088d3088d1088d0088cf088cd088cc088cb088ca088c8088c7088c4088c3088c0,
  0x089090890808907089060890508904089030890108900088ff088fd088fb088fa088f7088f6088f5088f2088ef088ee088ed088ec088eb088ea088e9,
  0x0892c08929089280892708926089240892308922089200891f0891e0891d0891c0891808917089160891508914089110890f0890e0890d0890c0890b,
  0x05bfb08be2065ec05faa0718f052cb08840096ea07a7405b660859b0977407eda07729076630900908937089350893308932089310892f0892e0892d,
  0x08bb604e9a054d1096c506daf0885905d160869c07259082bd04e2b0544009e2d09e26062bc0538b08fc50900a08baf08bad06c5b06b8905de109a6f,
  0x071d5058300827306f140884d0773c063a90594406cbf0708e0960e0989c08a0005ef605ca9087120781404e25076d006df9070df09609054bd07109,
  0x0517b075d204ef006c270963306d0b07f8a075a104f6f0626c06768079e709e2f0592e06b8309a8c08c1a05bb40713005f6605501096c10781a0538c,
  0x0894b0894a08949089480894708946089450894308942089400893f0893e0893d0893c0893b0893a08939089380747605996081700908006f3e06837,
  0x0896508964089630896208961089600895d0895c0895b0895a089590895808957089560895508954089530895208951089500894f0894e0894d0894c,
  0x089800897e0897d0897c0897a089790897808977089760897508974089730897208971089700896f0896e0896d0896c0896b0896a089690896808967,
  0x0899b0899a089990899808997089960899508994089930899208991089900898f0898e0898d0898c0898b0898a089890898808987089850898408982,
  0x04e5f051b6091ce07237080360564e0693008000089810836f08200054ac059da08c2307a910906505c2706447089a1089a00899f0899e0899d0899c,
  0x06c8207591080f004eea079fb0905705937098900886304f0a04f9d094f1063d60533b058f904e0006db20591c0814b066f3053f604e1a0639609875,
  0x0610f088d404ea6075ab0808409038081c605f7904ebf05c790909106613062910827a04ee5077e304e5905df20501a086810690505f5d059e805b9c,
  0x05bc506deb094f60541f059fb09634097f306bb7056e00836b0833507ece07fcc07ffc05f0208bd108c0a08bae08be306ea2076ca04e4905fc606bc5,
  0x089b5089b4089b3089b2089b1089b0089af089ae089ad089ac089ab089aa089a9089a8089a7089a6089a5089a4089a3089a20969005f1505c390996e,
  0x089e1089e0089df089dd089db089d9089d8089d7089d5089d4089d3089cd089c3089c0089bf089be089bd089bc089bb089ba089b9089b8089b7089b6,
  0x089ff089fe089fd089fc089fb089fa089f9089f8089f7089f6089f5089f4089f2089f1089f0089ee089ed089ec089ea089e9089e8089e7089e4089e2,
  0x08a1908a1808a1708a1608a1508a1408a1308a1208a1108a1008a0f08a0e08a0d08a0c08a0b08a0a08a0908a0808a0608a0508a0408a0308a0208a01,
  0x054df066200786c0989605f71076c808d6208fce08747083670842508424083b907f2805e9409e7005a7406a31082f10537008a1d08a1c08a1b08a1a,
  0x072b9094c0090ae0753105c2405fe7060a004f1805e7d07528052c70607f06c3806d8c06cf30548f086f908e0a096cd05eb8075c8081c304f63062e5,
  0x0610909c7c0903e04fde04f59082060611a0865e06986076c204e8e06de408fc205e7c053c808bf1091c904f51053f3053cb067090914906e3806cb9,
  0x072f106b320610805fa105cea055bb0904705401090c10828b057df0738907fbd08bed05b87079b905c7f04e0e096e805a3104e880968506e1406e1d,
  0x08a3308a3208a3108a3008a2f08a2e08a2d08a2c08a2b08a2a08a2908a2808a2708a2608a2508a2408a2308a2208a2108a2008a1f08a1e08a89080b2,
  0x08a4d08a4c08a4b08a4a08a4908a4708a4608a4508a4408a4308a4208a4108a4008a3f08a3d08a3c08a3b08a3a08a3908a3808a3708a3608a3508a34,
  0x08a6508a6408a6308a6208a6108a6008a5f08a5e08a5d08a5c08a5b08a5a08a5908a5808a5708a5608a5508a5408a5308a5208a5108a5008a4f08a4e,
  0x08a7e08a7d08a7c08a7b08a7a08a7808a7708a7608a7508a7408a7308a7208a7108a7008a6f08a6e08a6d08a6c08a6b08a6a08a6908a6808a6708a66,
  0x08fdc07f1806e900733f0570605458056ed08f95063f40539f08881057a305143051a406e0a09e3309a6d08c6b09884088d505bd306d7408a8008a7f,
  0x066550915d0857408fd0051410966805300090e704e910801809605060a60670807ca405cb3094a508dc308d8a07ea6066f009662060280613f082d1,
  0x067a3085fb051ff07cdf0906d0846c0810f08d4308d5e0668206512054b1057280518d08f7d05bb00707e054c90683d06742078380531d05b55097f5,
  0x08f670672d06e23055b30624e08d60066fe0618e0589e0600e08d3c06cfd05219062e908d23071e50707607682090200566a08e81086a406fa1065e9,
  0x08a9b08a9a08a9908a9808a9708a9608a9508a9408a9208a9108a9008a8f08a8e08a8d08a8c08a8b08a8808a8708a8608a8508a8408a8308a8208a81,
  0x08ab308ab208ab108ab008aaf08aae08aad08aac08aab08aaa08aa908aa808aa708aa608aa508aa408aa308aa208aa108aa008a9f08a9e08a9d08a9c,
  0x08acb08aca08ac908ac808ac708ac608ac508ac408ac308ac208ac108ac008abf08abe08abd08abc08abb08aba08ab908ab808ab708ab608ab508ab4,
  0x08ae308ae208ae108ae008adf08ade08add08adc08adb08ada08ad908ad808ad708ad608ad508ad408ad308ad208ad108ad008acf08ace08acd08acc,
  0x05d2d08f97065a9076cf06cbe07c9808a7906be1077bb05be80503a07a8405b850658b0645808bc8070b804e4d0548b069a80680507728095f8094e1,
  0x062db0969c07634080c004ed708d2605e1004e080675606da80638c05f2006f3305f7007ae006a1f07efd06e5b07ad90621805360068080863805c55,
  0x07827075040771f0659f073cd06d5908fd908517095170800508f99086f0054f2062980906e053ec080870514607f690716708d7506cbc0627e0662d,
  0x08ae508ae40653f06b63062ef065740601404e89072f005f810774106323084b809635095470632f0970708bca075b90679504fa60948808d1e081fb,
  0x08afd08afc08afb08afa08af908af808af708af608af508af408af308af208af108af008aef08aee08aed08aec08aeb08aea08ae908ae808ae708ae6,
  0x08b1608b1508b1408b1308b1208b1108b1008b0f08b0e08b0d08b0c08b0b08b0a08b0908b0808b0608b0508b0408b0308b0208b0108b0008aff08afe,
  0x08b2f08b2e08b2d08b2c08b2b08b2a08b2908b2808b2708b2508b2408b2308b2208b2108b2008b1f08b1e08b1d08b1c08b1b08b1a08b1908b1808b17,
  0x075c705e2708b4508b4408b4308b4208b4108b4008b3f08b3e08b3d08b3c08b3b08b3a08b3908b3808b3708b3608b3508b3408b3308b3208b3108b30,
  0x08dbe06b62063070574004f840503c0626706b960690d076f40804c07ec704e4b06c4108102080a2077e508718054310652f0679d0829d08bc1090d1,
  0x05fe0076c504e2d07a9206cbb06ede075d40709908d2807a1a079e90667a0523605cd905e1c07f6e081f4081f3063b70631a05fd707eb8065e8053ea,
  0x0682a073e009aa40663c05b99076b10549205e1a0809808f7407ca508bcc06d3205dde054680821f04f1704ef2091cd080bf079cd07ec8088770949f,
  0x08b4908b4808b4708b4607b51094f808d2e086c0052a9067f10845704e3b05631077a9062c40716e070db07af90901008bdb08bf80732a06731086db,
  0x08b6108b6008b5f08b5e08b5d08b5c08b5b08b5a08b5908b5808b5708b5608b5508b5408b5308b5208b5108b5008b4f08b4e08b4d08b4c08b4b08b4a,
  0x08b7b08b7a08b7908b7808b7708b7608b7508b7408b7308b7208b7108b7008b6f08b6e08b6d08b6b08b6a08b6908b6808b6708b6508b6408b6308b62,
  0x08b9308b9208b9108b9008b8f08b8e08b8d08b8c08b8b08b8a08b8908b8808b8708b8608b8508b8408b8308b8208b8108b8008b7f08b7e08b7d08b7c,
  0x09a7b0795d06ce804f4f08c1e08c0908bea08bd008bc708bbb08bb108bac08b9f08b9e08b9d08b9c08b9b08b9a08b9908b9808b9708b9608b9508b94,
  0x051c608c0607f000576008d5808ffd095250690e072b6058ee0649e05986088c505e840686907bc608d5a064b008f6c0781604e13062fd0722a06293,
  0x081ea05b5006ed307c7d04ed407d2b05b5c06dc406ecb059ff08d44054a80517906d4a0707c07740055440914c08301074220684c05353062d906349,
  0x0563407e82094bb07ec40963b08bc507956065cf0535208db3079df063cd0594f08d70090b907eb50603b07efc05b9708e2a068d509b0305b5706e0d,
  0x08c3d08c3c08c3b08c3a08c3908c380e8140e8130e8120e8110e81005ea70575004f5c0505a067de04f5005de6066280907505c0a07f6a0670009189,
  0x08c5c08c5b08c5908c5808c5708c5608c5408c5308c5208c5108c5008c4f08c4e08c4d08c4b08c4a08c4808c4508c4408c4308c4208c4008c3f08c3e,
  0x08c7c08c7b08c7708c7608c7508c7408c7208c7108c7008c6f08c6e08c6d08c6c08c6908c6808c6708c6608c6508c6408c6308c6008c5f08c5e08c5d,
  0x08c9b08c9a08c9908c9708c9608c9508c9308c9208c9108c9008c8f08c8e08c8d08c8b08c8808c8708c8608c8408c8308c8108c8008c7f08c7e08c7d,
  0x0534505eff04e100514004e0c04e8d08cad08cac08cab08caa08ca908ca808ca708ca608ca508ca408ca308ca208ca108ca008c9f08c9e08c9d08c9c,
  0x09f1004e9f04e3609f170777e06bd309997080e4056df06c100536e0723b0592d04e470531504e3f079ba04e280566905b6c09b3204e1e04e9804e15,
  0x05202053630536608d5c0533e0532e05326053f50531a08d5d09765053ae053a5053a30539d0538d04ec40560f0556c05b5b0828804e9304e6904e5c,
  0x04ee104ee804ec204ec904ec304ebb07f5405182052930529005281052820527d084af0525c052610525e0524c052400523f052330522d0520e05208,
  0x08cb508cb408cb308cb208cb108cb008caf08cae04f5d04f5a0653804f6704f5e04f2b04f0904f2704f2504ef504f6404f2204ef304f1b04ede04eeb,
  0x08ccd08ccc08ccb08cca08cc908cc808cc708cc608cc508cc408cc308cc208cc108cc008cbf08cbe08cbd08cbc08cbb08cba08cb908cb808cb708cb6,
  0x08ce508ce408ce308ce208ce108ce008cdf08cde08cdd08cdc08cdb08cda08cd908cd808cd708cd608cd508cd408cd308cd208cd108cd008ccf08cce,
  0x08cfd08cfc08cfb08cfa08cf908cf808cf708cf608cf508cf408cf308cf208cf108cf008cef08cee08ced08cec08ceb08cea08ce908ce808ce708ce6,
  0x04f8904f9104f7404f7604f3d04f3204f5704f5f08d0d08d0c08d0b08d0a08d0908d0808d0708d0608d0508d0408d0308d0208d0108d0008cff08cfe,
  0x0502e0500f0502c04ff30504c0502904ff804fdf04fd104fdc04fe304fda04fc504fea04fe804fe604f9404fac04f7c04faa04f7b04f7e04f8f04f83,
  0x05107050ee050e6050ec050ed05106050d6050ba050a9050a7050a50507b0506c0504e0504805055050430507e05028050250500c0501c04ffe0502d,
  0x0515604ea00515505919051eb0531008a070530d052f905914051810999809ec905dfd0516e07c7406c4609fa004fce04f6504f5806c3d04edd0510b,
  0x08d1708d1608d1508d1408d1308d1208d1108d1008d0f08d0e051bc051bd051b1051ab07fb80880305b3407980088d20811404eb5088a40886e04eb3,
  0x08d7c08d7b08d7a08d7908d7808d7208d7108d6f08d6e08d6c08d6a08d6908d6808d6508d5f08d5708d5208d5108d2008d1c08d1b08d1a08d1908d18,
  0x08d9b08d9a08d9908d9808d9708d9608d9508d9308d9208d9008d8f08d8e08d8d08d8c08d8908d8808d8708d8608d8308d8208d8008d7f08d7e08d7d,
  0x08dbb08db908db708db608db208db008daf08dae08dad08dac08dab08daa08da908da808da708da608da508da408da208da108da008d9e08d9d08d9c,
  0x08bb508bb408baa08ba708ba608ba0051a5051a205196051c708dd408dd308dd208dd008dcd08dca08dc908dc808dc708dc508dc208dc108dc008dbd,
  0x08bfc08bf908bf608bf308bf008bee08be908be808be408be008bdf08bdc08bd908bd808bd608bd408bd308bd208bce08bcf08bcb08bc308bc208bb7,
  0x08c2e08c2b08c2a08c2708c2508c2108c2008c1f08c1d08c1808c1b08c1908c1608c1508c1408c1208c1108c0f08c0c08c0708c0408c0208c0008bff,
  0x0968d0968809674096720966c096670965f0965409649096420963c0963d0962a0963109621096220961d0537a0536908c3608c3508c3308c3208c2f,
  0x08ded08de908de708de608de508de208de108de008ddc08dd908dd808dd5090ba090b6090b3090b4090a1090ac090990909d0909b09097096b009697,
  0x08e1308e1208e1108e1008e0e08e0d08e0b08e0808e0708e0608e0408e0308e0208e0108e0008dff08dfe08dfc08df608df408df208df108df008dee,
  0x08e3808e3708e3608e3408e3308e3208e3008e2d08e2b08e2808e2708e2608e2508e2408e2108e2008e1c08e1b08e1a08e1908e1808e1708e1608e15,
  0x08e5f08e5e08e5d08e5c08e5b08e5a08e5808e5708e5608e5508e5408e5308e5008e4f08e4e08e4d08e4c08e4608e4508e4308e3f08e3e08e3c08e3b,
  0x090dc090e2090e6090d3090c7090c4090d0090be090c5090cf090b0090b808e7108e6e08e6b08e6a08e6808e6708e6508e6408e6308e6208e6108e60,
  0x052f0052d6052d0054ff052be052ad052ac052a2059420520d0914609143091390912f09131091230911e0912209104090fe090ef090eb090db090d7,
  0x0572e05739057330572a0572c05729058d1058c5058bc0587e057a1057a90574c05def0755a05f01053b609b2f051fc051f505ef4077cd071ee053df,
  0x057d5057a005793057b4057a7057cf057b20578c057a4057ad05773057760576d057680577b0577c057860576b0578505769057420573b0575c0572f,
  0x08e8608e8408e8308e8208e8008e7e08e7d08e7b08e7a08e7908e7808e7708e7508e73057dd057e4057f8057ef057f4057b8057d2057d9057da057d8,
  0x08ea408ea308ea208ea108ea008e9f08e9d08e9b08e9a08e9908e9808e9708e9608e9508e9308e9208e9108e8e08e8d08e8c08e8b08e8a08e8908e88,
  0x08ec108ec008ebf08ebe08ebd08ebc08ebb08eb908eb808eb708eb608eb508eb408eb308eb108eb008eae08ead08eaa08ea908ea808ea708ea608ea5,
  0x08eda08ed908ed808ed708ed608ed508ed408ed308ed208ed108ed008ecf08ecd08ecc08ecb08eca08ec908ec808ec708ec608ec508ec408ec308ec2,
  0x0589a05889058810586c058650582005844058190581e05800057ed057fd0580d0580b08ee408ee308ee208ee108ee008edf08ede08edd08edc08edb,
  0x082b708298082e3082ca082c8082b0082be082b8082ab0829908297082910828e08284082a80828a0828f0827f0827d08279061ff09f19099a805880,
  0x082fb0830c082d8082d2082f4082dc083070830f082e4082f708309082e1082a4082ce082c40829f082aa082a1082b4082a9082c1082cc082cb082ae,
  0x0835f08343083470834f0832f0835e0839b08331083340833c08392083080835c0835b083510831c082d5082e00831508314083060831a08311082d3,
  0x08ef408ef308ef208ef108ef008eef08eee08eed08eec08eeb08eea08ee908ee808ee708ee608ee50836508366083330833a0832d083600831708340,
  0x08f0c08f0b08f0a08f0908f0808f0708f0608f0508f0408f0308f0208f0108f0008eff08efe08efd08efc08efb08efa08ef908ef808ef708ef608ef5,
  0x08f2408f2308f2208f2108f2008f1f08f1e08f1d08f1c08f1b08f1a08f1908f1808f1708f1608f1508f1408f1308f1208f1108f1008f0f08f0e08f0d,
  0x08f3c08f3b08f3a08f3908f3808f3708f3608f3508f3408f3308f3208f3108f3008f2f08f2e08f2d08f2c08f2b08f2a08f2908f2808f2708f2608f25,
  0x083850839c08393083aa083a0083b4083b308378083b00836e0836d0836a0836c083690831b0836808f4408f4308f4208f4108f4008f3f08f3e08f3d,
  0x08411084380841c083d6083fd083dd0840b0841805807083d8083e508401083c1083bc083ba083a80839e083980837b083b80837d083a9083b60837c,
  0x0843c08478084890847a084880848708473084590845a084510845c083e1083f008426083c0083c5083ea083f9083f8084030840f083df083d408406,
  0x0850c084e3084e508497084b4084b9084a1084e0084ba084bf084ca084d3084bd084e6084d0084cd084c10846d084310848e0848c084760846908446,
  0x08f5608f5508f5408f5308f5208f5108f5008f4f08f4e08f4d08f4c08f4b08f4a08f4908f4808f4708f4608f450853a0851f08539084f0085380750d,
  0x08fa408fa208fa108fa008f9d08f9208f8c08f8008f6a08f6508f6408f6308f6208f6108f6008f5f08f5e08f5d08f5c08f5b08f5a08f5908f5808f57,
  0x08fcb08fca08fc908fc608fc308fc008fbf08fbc08fbb08fba08fb808fb708fb508fb408fb308fb208faf08fae08fad08fac08faa08fa708fa608fa5,
  0x0900708fff08ffe08ffc08ffb08ffa08ff608ff508ff408ff208ff108fef08fec08fe708fe308fe108fe008fda08fd708fd608fd208fcf08fcd08fcc,
  0x0858f08587085a8085a40857b0857208543077a20857a0855e08564085680854808559084fc084ff0853b085560901809015090130900e0900c09008,
  0x059580595a0595508037059410593c05f0805efe0863c08616086290860508627085ff085dc085c1085d3085b0085b7085b9085850859c085ae08579,
  0x063b40638e0637a06371063f6063ad063430634b06339062f606322062ee062d7062da062ca062bb0629f0626a0624c05c3405c2c05c2505c220530f,
  0x06421064260640c064200641b0640b0644106445063be063c606452063ce063de063c4063ff063e0063f8063f2063bc063ae063690638a063ac0636d,
  0x0903d0903a090390903709034090330903209031090300902c0902b0902a0902909028090270902509024090230901c09019064960646d064840645e,
  0x090660906409061090600905f0905e0905d0905c0905a090590905609055090540904e0904c0904b0904a0904909048090460904509043090400903f,
  0x0908909087090860908509084090810907e0907c0907b0907a09079090780907709076090730907209071090700906f0906c0906b0906a0906909067,
  0x090b7090b2090ad090ab090a9090a8090a7090a5090a4090a00909f0909e0909c0909a09098090960909409092090900908f0908e0908d0908c0908a,
  0x053fd053f10535f05f110751905fd205f0b0652e0652506509064e2064e4064d7064d0064c0064ba06499064b8064b70647a090c0090bf090bd090bc,
  0x0549b0549a0546405471054770549405482054320542305459054570542105443054560545405453054520544b054060541605412053fb053e8053e9,
  0x054aa054a9054dc054da054d9054cc054bf054bb054d5054a305472054d4054d3054a6054a7054d2054b4054c2054ad054d00549d054660547605484,
  0x0553f05555055410556d05549055b50558f055670552a05527055110550f0552305522054f305514054fd05520054e70551b054de054cf054dd054a4,
  0x090e9090e5090e4090e3090e0090df090de090da090d9090d8090d6090d5090d4090d2090cd090cc090cb090c9090c8090c6090c3090c20553c05550,
  0x0910a0910909108091070910609105091030910109100090ff090fc090fb090fa090f9090f7090f6090f5090f3090f2090f1090f0090ee090ec090ea,
  0x09126091250912409121091200911f0911d0911c0911b0911a0911809117091160911509114091130911209111091100910f0910e0910d0910c0910b,
  0x09141091400913f0913e0913d0913c0913b0913a09138091370913609135091340913309132091300912e0912d0912c0912b0912a091290912809127,
  0x055bd055df0557b05591055d60557e0559f0558105588055b9055b105583055d20558b0555c055300553305577055760557505556055370914409142,
  0x08f94055e4055f5055e8055cd055cc055f3055f2055e5055ef055c4055dd055e6055d4055ec055eb055d10561f055c9055f7055ea0559905594055be,
  0x0566b056710566405686056540564c0565c05659056620564d0562c0565705639056580562d0562705600055fe0562305624056010560c056080561e,
  0x05e3c05e3b05e3105e1105e1405e1905e0f0571c057090570a05704056ff056f9056eb056f5056e1056dd056d7056d4056af05693056850567c0567b,
  0x091800917c0917b0917a091730916d0916b091680916709166091600915f0915c0915b09159091580915609155091540915309151091480914709145,
  0x091a5091a4091a1091a00919f0919e0919d0919c091990919809197091960919509194091930918f0918e0918a091880918609184091830918209181,
  0x091c4091c3091c2091c1091c0091bf091be091bd091bc091bb091b9091b8091b7091b6091b3091b2091b1091b0091ac091ab091a9091a8091a7091a6,
  0x091e5091e4091e3091e2091e1091e0091df091de091dd091db091da091d9091d8091d7091d6091d5091d4091d3091d2091d0091cb091c8091c6091c5,
  0x05ca305cb105cab05cac05cbd05ca205cb505c9c05c9a05c9105c9905c9805c8805c9605c9005c8d05c7a05c8c05e6105e5e05e5b05e5405e4405e37,
  0x05d5d05d6f05d5b05d6c05d3d05d3405d3e05d5805d1b05d0605d1e05d2405d2e05d2605d2705d0305d0205ce505ccb05ce405cd205cc405cb705cc1,
  0x05fbc05fb505fad05fa805f9c05f9905f9505f8c05f8905f8705f8205f7705f7305dc505db708c7305d9d05d9905d8205d7405d6905d4a05d4b05d6b,
  0x091e7091e6072fa07303072f307301072f7072f4072f2072e9072ef072e8072d2072cd072ce072c1072c3072b8072b7072b4072b0072ad05f6108862,
  0x091ff091fe091fd091fc091fb091fa091f9091f8091f7091f6091f5091f4091f3091f2091f1091f0091ef091ee091ed091ec091eb091ea091e9091e8,
  0x09217092160921509214092130921209211092100920f0920e0920d0920c0920b0920a09209092080920709206092050920409203092020920109200,
  0x0922f0922e0922d0922c0922b0922a092290922809227092260922509224092230922209221092200921f0921e0921d0921c0921b0921a0921909218,
  0x07317072fb0924509244092430924209241092400923f0923e0923d0923c0923b0923a09239092380923709236092350923409233092320923109230,
  0x0590205924098e7059250821b0737e0736f0736c07360073570734d0735007331073380732c073250733907322073150731d0731e0730a0732107313,
  0x05e9605e8b05e9105e8009995099940999309991099900998d0998a0998709984099800997d09977099740996c0996b0996a09969099680996709963,
  0x0600505ffe05fe405fe10600405fee0600305fcf05fd605fc905fc4081ba05eea05ee805edb05ed105ed208d5305eb305ebe05eb505eb905ea005ea5,
  0x09249092480924709246060420607a0607b0607906078060210603f0600a0602b060290600d0600f0601b06026060350601905ff805fed05fea06006,
  0x09261092600925f0925e0925d0925c0925b0925a092590925809257092560925509254092530925209251092500924f0924e0924d0924c0924b0924a,
  0x0927a0927909278092770927609275092730927209271092700926f0926e0926d0926c0926b0926a0926909268092670926609265092640926309262,
  0x092930929209291092900928f0928d0928c0928b0928a092890928809287092860928509284092830928209281092800927f0927e0927d0927c0927b,
  0x0609a060960607d0606a092a7092a6092a5092a4092a3092a2092a1092a00929f0929e0929d0929c0929b0929a092990929809297092960929509294,
  0x061750614a0612b0610e06100060f406123061150612606120060b4060da060c6060d8060dd060b1060bb060ec0609b0608c06092060830609d060ad,
  0x0960d0960c0960b0960a09608096060960409603095fe095fc095f6095f5095f3095f1095eb095e9096b305fdd061f5061d4061b7061a706194061ac,
  0x06c8606c7606c7406c6906c6806c8c06c9406c9006c8506ca306c4a06c5c06c5406c35062150723f04e2c0961a09619096170961609615096120960f,
  0x092ad092ac092ab092aa092a9092a806cfe06cef06cd306cb106cee06ceb06cfa06cd606ce006cb206cd706cf106cf806cf706cad06cd406cd006ca9,
  0x092c6092c5092c4092c3092c2092c1092c0092bf092be092bd092bc092bb092ba092b9092b8092b7092b6092b5092b4092b3092b2092b1092b0092af,
  0x092df092de092dd092dc092db092da092d9092d8092d7092d6092d5092d4092d3092d2092d1092d0092cf092ce092cd092cc092cb092ca092c9092c7,
  0x092f7092f6092f5092f4092f3092f2092f1092f0092ef092ee092ed092ec092eb092ea092e9092e8092e7092e6092e5092e4092e3092e2092e1092e0,
  0x06d0706d4806d4306d0c06d2706d3909309093080930709306093050930409303093020930109300092ff092fe092fd092fc092fb092fa092f9092f8,
  0x06e1a06d6306d7c06d6006d5c06d9406d9306d5e06da006d9e06d6f06d9106d3306d5406d5206d4f06d1a06d3506d2e06d4d06d2b06d0e06d1906d04,
  0x06e3206e5406e5306e8606e5f06eb206e6b06e4e06e6e06e2b06dae06e0c06dab06e1606dd906ddd06de606e1106de006dbf06e0e06dde06dc506dc7,
  0x06f1506f2406f4706f4606f6206e9f06ec206e8f06ecf06eb406ed706eb706ebb06ebd06ea706ea506ee206f2d06ee006e9806eb106edf06e4406e25,
  0x09311093100930f0930e0930d0930c0930b0930a06fd106f7a06f7c06f7206f7806f8c06f8d06f8906f2906f0906f2a06f7406f4b06f3606f2f06ef9,
  0x093290932809327093260932509324093230932209321093200931f0931e0931d0931c0931b0931a0931909318093170931609315093140931309312,
  0x0934209341093400933f0933d0933c0933b0933a093390933809337093360933509334093330933209331093300932f0932e0932d0932c0932b0932a,
  0x0935a093590935809357093560935509354093530935209351093500934f0934e0934d0934c0934b0934a09349093480934709346093450934409343,
  0x06fde06fee06fe106fc206fb606fb906fa706fc90936b093690936809367093660936509364093630936209361093600935f0935e0935d0935c0935b,
  0x08b0708e4705bf00893005bee05be40643409a9e0752f05bb805ba505b9305b9505b8405b800705e0704f07035070390701b070230701a06fef06fe0,
  0x09051090440902f0902d090360903509021090160900d09011090260900b090040900508fe808ff308fe608fe908fe408fee08fe508fd508fd308fb6,
  0x05c6605c6305b7105c5905c50054ab05c3b05f5805f5605f5705f500908b0908309088090820907d09074066b90905b0906209058090680905009052,
  0x0937509374093730937209371093700936f0936e0936d0936c059a3059aa059a90598d059830598105c6e09b3b05f3c0827405f2d05f2905f2a07fbc,
  0x0938d0938c0938b0938a093890938809387093860938509384093830938209381093800937f0937e0937d0937c0937b0937a09379093780937709376,
  0x093a6093a5093a4093a3093a2093a1093a00939f0939e0939d0939c0939b0939a093990939809397093960939509394093930939209391093900938e,
  0x093be093bd093bc093bb093ba093b9093b8093b7093b6093b5093b4093b3093b2093b1093b0093af093ae093ad093ac093ab093aa093a9093a8093a7,
  0x059be059d7059af059b2059d2059a40599e059ab059ca05997093cd093cc093cb093c9093c8093c7093c6093c5093c4093c3093c2093c1093c0093bf,
  0x05a9b05aaa080ec05a7505a6205a3c05a5505a4a05a6705a4005a1305a2305a1105a3405a3205a0905a0c059f9059d8059e305a08059dd05a0605a05,
  0x05b5a05c1c05c1505b4005b3705b3205b1605b1705b0905adc05ad805ae605ad605af105ae305ae005ab805ad405ad205ab205aeb05abe05a7a05a77,
  0x09a9d09a9c09a9b09a9809a9609a9309a9209a9009a8a09a8809a8509a8109a8009a7d09a7f09a7a09a7809a7709a7505b6205b5305b5105b7305b65,
  0x093da093d9093d8093d7093d5093d4093d3093d2093d1093d0093cf093ce07ea907ea807ea507ea307ea107e9f09aa709aa509aa309aa209aa009a9f,
  0x093f2093f1093f0093ef093ee093ed093ec093eb093ea093e9093e8093e7093e6093e5093e4093e3093e2093e1093e0093df093de093dd093dc093db,
  0x0940a09409094080940709406094050940409403094020940109400093ff093fe093fd093fc093fb093fa093f9093f8093f7093f6093f5093f4093f3,
  0x0942209421094200941f0941e0941d0941c0941b0941a094190941809417094160941509414094130941209411094100940f0940e0940d0940c0940b,
  0x07ed707ed407ed007ecc07ecb07ec907ec207ec107ec007ebe07eb007ead0942e0942d0942c0942b0942a09429094280942709426094250942409423,
  0x07f1207f1107f0f07f0c07f0b07f0807f0707f0307f0207f0107efe07efb07efa07ef607f0d07ef207ef107eef07eee07eeb07ee807ee107ee007edb,
  0x0757f05e7a07f3507f3307f3207f3107f3007f2f07f2d07f2c07f2b07f2a07f2707f2607f2507f2407f2307f2207f2107f1f07f1b07f1c07f1907f17,
  0x073ba073de073e7073e90740a0987c073d9073e5073c8073c9073c0073b3073b7073d1073c2073cf0739f073a2073ae073910738e090950753e05ddb,
  0x0943c0943b0943a094390943809437094360943509434094330943209431094300942f0742c0742e074300742807425074260745b0742a0740f073f2,
  0x0945509454094530945209451094500944f0944e0944d0944c0944b0944a094490944809447094460944509444094430944209441094400943f0943d,
  0x0946e0946d0946c0946a094690946809467094660946509464094630946209461094600945f0945e0945d0945c0945b0945a09459094580945709456,
  0x094960949109484094830948209481094800947f0947e0947d0947c0947b0947a094790947809477094760947509474094730947209471094700946f,
  0x07481074800748e0749c0747e0746d074770745907455074570745c074410741a0741b095200951c094fb094e6094da094d4094d3094cf094c709498,
  0x06775067a706798067730676a06787067a506769067480675e067530674c097ec097eb097ea074ba074d2074a707490074a9074a80749e0748b07487,
  0x067c10680e067e2067b8067c306800067dd067b3067da067b5067d90680c067b0067e90680a067d806809067f00677c067770678b067ad0679e067a8,
  0x06877068740688f068b506829068490684a0683e06840068670684106866068550681d068830686406844068620684e06861068600683306832067fd,
  0x0957a09579095780957709575095740956e095600955a095550954b09548095430953d0953309527068f9069200691f068fc0696e068c20686b06893,
  0x095930959209591095900958f0958e0958d0958c0958b0958a095890958809587095860958509584095830958209581095800957e0957d0957c0957b,
  0x095ab095aa095a9095a8095a7095a6095a5095a4095a3095a2095a1095a00959f0959e0959d0959c0959b0959a095990959809597095960959509594,
  0x095c3095c2095c1095c0095bf095be095bd095bc095bb095ba095b9095b8095b7095b6095b5095b4095b3095b2095b1095b0095af095ae095ad095ac,
  0x06998069800696b069840695d0694206960069390697106910068e306957069010690b068f006924095cb095ca095c9095c8095c7095c6095c5095c4,
  0x069ff0698d069e006995069df069ca069c1069b1069d4069ad069ab069bb069a70699b06979069630696606989069ce0698806987069cc0693406978,
  0x0733706aab06a9706aa906a9006a9106a7c06a5806a2806a3d06a7906a8e06a3506a5b06a5006aa006a3e06a44069f206a6506a1806a17069ed06a2f,
  0x08f7c08f7a08f7908f7708f7808f7608f7508f7308f7208f7108f6d08f6b06baa06ba106b9b06b9a06b8d06b9306b9206b8406b8706b8206b8107352,
  0x095dd095dc095db095da095d9095d8095d7095d6095d5095d4095d3095d2095d1095d0095cf095ce095cd095cc08f8b08f8708f8408f8208f8108f7e,
  0x096280962709626096250962409623096200961e0961b096180961309607095ff095ec095e7095e6095e5095e4095e3095e2095e1095e0095df095de,
  0x0965a096590965809657096560965309652096510964f0964e0964a09643096410963e0963a096390963809637096300962f0962d0962c0962b09629,
  0x09681096800967f0967e0967d0967c0967b0967a09679096780967309671096700966f0966e0966d0966b096660966509663096600965e0965d0965c,
  0x074f4074ef081e70622c062240622506221062220621f0621b062170620b08ece08f9a08f9808f8f08f8e08f8d0968a0968909687096840968309682,
  0x066540665f08006066350663606631066340661d066f70708506600066150660306772066190660a065f0065ef065ee0653407513075110750f074ff,
  0x08d4808d4608d4508d4008d3d08d3b08d3608d3308d32066e9066e6066dc066db066be0669d066a70668c06684066770665706661066560664f06641,
  0x0728f0728d0728b072840727f0727e0726f072660725d0729f0726e089d1089d0089cf089ce089cc089cb089ca089c708d5908d5508d4d08d4708d49,
  0x096a8096a6096a5096a4096a3096a2096a1096a00969f0969e0969d0969b0969a09696096950969309692096910968e0968c063b0063320630807292,
  0x096d3096d1096d0096cb096ca096c8096c3096c2096bf096bb096ba096b8096b7096b5096b4096b2096b1096af096ae096ad096ac096ab096aa096a9,
  0x096f1096f0096ee096ed096ec096eb096e7096e6096e5096e4096e3096e2096e1096df096de096dd096dc096db096da096d9096d8096d7096d6096d4,
  0x0971a09719097180971709715097140971209711097100970c0970b0970a097050970309702096ff096fd096fc096fb096fa096f8096f5096f4096f2,
  0x06c2a06c2406c2906c2106c1a06c1906c1806c1506c0d06c0606c0706c0506bf906bf506bfd06bf306bea08004064d80643f097200971f0971d0971b,
  0x080e9080e8080e7080b7080b4080ad080ab080b1080bd0670a080bc080930809c0809f05216086620723007256072520724d0656b065550653506c32,
  0x081180812c0811e0813608c5a0811206715080fc080f20810e0810d080ed080f4080f1080eb080dd06710080d7080cd080d9080c4080c2080db080ea,
  0x06726081cc081aa081a306ed508191081820818805ab50584d081670816d0817d0817c0816908160081710815a0815908174081530814c0814808132,
  0x0973c0973b0973a0973709736097350973409733097310972f0972e0972c0972b097290972809727097260972509724097230972209721081bb081ca,
  0x0975809757097550975409751097500974f0974e0974d0974c0974b0974a097490974809747097460974509744097430974209741097400973f0973d,
  0x0977b0977a097790977809777097750977209771097700976f0976e0976d0976c0976b0976a09768097670976609764097630975f0975d0975c0975a,
  0x0979b0979a0979909797097960979509793097900978f0978e0978c0978a0978909788097870978609784097830978209781097800977f0977e0977d,
  0x065bc0659309f5106590089f306bc205f4006bb3098da098d9098d5098d3098d2098d106b5906b4606b4306b3906b3706b24081a6081c10979d0979c,
  0x07173071310712f071160711307110070ca070e8070b1070ab070b7070c0070bb0709d070960709c07080065d6065d2065ce065cc065c3065c4065c6,
  0x0623d0623e071b907166071180706c072280721d071f9071e7071d4071e0071a0071a8071b5071b3071980717a071780714a0717207145071680715c,
  0x05fd005fd1079b3079a70799a0798a079850797a079670796f0796007957079620795a079530795c0795b0794907946079400793b062490624806243,
  0x097bc097bb097ba097b9097b8097b7097b6097b5097b3097b1097b0097ae097ac097aa097a9097a8097a7097a6097a5097a4097a2097a10979f0979e,
  0x097d4097d3097d2097d1097d0097cf097ce097cd097cc097cb097ca097c9097c8097c7097c6097c5097c4097c3097c2097c1097c0097bf097be097bd,
  0x097f4097f2097f1097f0097ef097ee097e8097e5097e4097e3097e2097e1097e0097df097de097dd097dc097db097da097d9097d8097d7097d6097d5,
  0x0980e0980d0980c0980b0980a09809098080980709806098050980409803098020980109800097ff097fe097fd097fc097fb097fa097f9097f8097f7,
  0x07800077f8077f606dfc06cf606c930807f0808006206061d1061cb0619d061a90615d0610d06106060ab060630605906041060670605a0605d0603c,
  0x07847078500782607857078560786d0784e07829078230782c078250783c0781f0783b0783a078390781d0781c0782d065ab07811078180781707809,
  0x09f9b079340791e0792407913078f407905078f2078ec078c9078d9078d4078a5078b9078b2078a3078a10789c078870789a078930789b0786a0784c,
  0x098100980f077680775a077430774707751077500773807735077260772d07719077220771a0770807707076f90770d07704076f109efc09efb09ef9,
  0x0982809827098260982509824098230982209821098200981f0981e0981d0981c0981b0981a098190981809817098160981509814098130981209811,
  0x098400983f0983e0983d0983c0983b0983a098390983809837098360983509834098330983209831098300982f0982e0982d0982c0982b0982a09829,
  0x0985809857098560985509854098530985209851098500984f0984e0984d0984c0984b0984a098490984809847098460984509844098430984209841,
  0x07765077620986e0986d0986c0986b0986a098690986809867098660986509864098630986209861098600985f0985e0985d0985c0985b0985a09859,
  0x08a4807f5f07f6107f580758307579075720755b075480754b0754e075400753a077bd077b5077b0077a00779f077910778c077800777d0778d0777f,
  0x0949c0949b0949a094950949709494094900948f0948d0948c0948a0948b09487094860948508832076e5076cd07f7e07f8107f7907f7107f7407f68,
  0x094cc094cb094ca094c9094c8094c4094bf094bd094bc094ba094b9094b8094b7094b6094b4094b2094b0094af094ac094ad094aa094ab094a4094a3,
  0x0987209871098700986f094ea094e8094e7094e5094e4094e2094e0094df094de094db094d8094d9094d7094d6094d5094d2094d1094d0094ce094cd,
  0x098b7098b6098b5098b4098b3098b2098b1098b0098af098ae098ad098ac098ab098aa098a9098a8098a30989909895098920988e0988b0987409873,
  0x098d0098cf098cd098cc098cb098ca098c9098c8098c7098c6098c5098c4098c3098c2098c1098c0098bf098be098bd098bc098bb098ba098b9098b8,
  0x098f3098f2098f1098f0098ef098ee098ed098ec098eb098ea098e9098e6098e5098e4098e3098e2098e1098e0098dd098dc098db098d7098d6098d4,
  0x094ef094ee094eb094e90990709906099050990409903099020990109900098ff098fe098fd098fc098fb098fa098f9098f8098f7098f6098f5098f4,
  0x0951b0951809516095150951409513095120950f0950e0950d0950a0950909507095060950209503094ff094fd094fc094f9094f7094f5094f4094f3,
  0x0954c0954909546095450954409535095420953f0953e0953c0953809537095360953409532095310952c095290952b0952a095220951f0951e0951d,
  0x0956c0956b0956a09569095680956709566095650956409562095610955d0955f0955e0955b095590955809557095560955409553095520954f0954e,
  0x0990e0990c0990b0990a099090990807a1407a1e07a0207a0305d4707a06079eb079e3079ed079d5096c9077ec077e70953a0957309572095710956f,
  0x09927099260992509924099230992209921099200991f0991e0991d0991c0991b0991a0991909918099170991609915099140991309912099110990f,
  0x099400993f0993e0993d0993c0993b0993a099390993809937099360993509934099330993209931099300992f0992d0992c0992b0992a0992909928,
  0x0995a09959099580995709956099530995209951099500994f0994e0994d0994c0994b0994a099490994809947099460994509944099430994209941,
  0x07a70099a509ecf07a5107a3707a390998909983099820997e0997b09979099780997309966099640996209961099600995f0995e0995d0995c0995b,
  0x09e4109e3e09e3a09e3909e3709e3809e3609e3109e3209e2c09e2b09e2a09e2909e2809e2209e200752c074e0074de076a407699076930768e07688,
  0x09e6c09e6b09e6a09e6909e6809e6709e6609e6309e5e09e5c09e5b09e5a09e5709e5509e5109e4e09e4c09e4b09e4909e4809e4709e4609e4409e42,
  0x075e4075e6075e8075e3075cd075d6075c2075c3075b0075b1075c4075b8075b4075b3075a3075ac0759d075a007596075940759209e7309e6d09e71,
  0x0999f0999e0999d0999c0999b0999a0998e0998c076190761507618076250760a076170760c076050760007610075ff075fc075f107603075e7075eb,
  0x099b9099b8099b7099b6099b5099b4099b3099b2099b1099b0099af099ae099ad099ac099ab099aa099a9099a7099a6099a4099a3099a2099a1099a0,
  0x099d1099d0099cf099ce099cd099cc099cb099ca099c9099c8099c7099c6099c5099c4099c3099c2099c1099c0099bf099be099bd099bc099bb099ba,
  0x099e9099e8099e7099e6099e5099e4099e3099e2099e1099e0099df099de099dd099dc099db099da099d9099d8099d7099d6099d5099d4099d3099d2,
  0x0763f076300762d0764007620076220763c0761b099f9099f8099f7099f6099f5099f4099f3099f2099f1099f0099ef099ee099ed099ec099eb099ea,
  0x07aad07aa807aac07aa007aa607a9507a8807a8607a8007a7907a7807ae607fca0766f0766b076560765c076540765e0764d076330763e0764307635,
  0x0891908921088f0088fe088e8088fc0891a088f1088e5088e3088ce088e2088c9088bc088b7088c6088a2088820887f0887d08872088690886407ab3,
  0x0802908027080260802508022080200801c080160801408012077dc076b4076b2080e50758b0897b0896608941089360892b089340890a0891b08913,
  0x09a0309a0209a0109a00099ff099fe099fd099fc099fb099fa098830988009878089830807108069080520804d0804608043080350800b0803108028,
  0x09a1b09a1a09a1909a1809a1709a1609a1509a1409a1309a1209a1109a1009a0f09a0e09a0d09a0c09a0b09a0a09a0909a0809a0709a0609a0509a04,
  0x09a3309a3209a3109a3009a2f09a2e09a2d09a2c09a2b09a2a09a2909a2809a2709a2609a2509a2409a2309a2209a2109a2009a1f09a1e09a1d09a1c,
  0x09a4b09a4a09a4909a4809a4709a4609a4509a4409a4309a4209a4109a4009a3f09a3e09a3d09a3c09a3b09a3a09a3909a3809a3709a3609a3509a34,
  0x098a10989f0989e0989b0989a098940988f0988d0988c0988909a5909a5809a5709a5609a5509a5409a5309a5209a5109a5009a4f09a4e09a4d09a4c,
  0x086b5086c4086b6086a908693086aa086a3086a70869d086ac0868b0868d086a80867b0867c0867a0867f0866e0866c086540864d098a6098a5098a2,
  0x08708086f80870708703086d1086d8086df086f4086de08713086d0086f3086ed086f2086f1086e9086b4086cf086c9086af086b1086ba086b0086ce,
  0x0874c08770087600877b0877e0877d08722087820873f08737087290873108734087480873e0871a0872e087250871e0873b08723087090870d0870a,
  0x09a6509a6409a6309a6209a6109a6009a5f09a5e09a5d09a5c09a5b09a5a087d2087a8087af087930876508759087640877c08763087530878b0876e,
  0x09ab309ab209aaf09aae09aad09aac09aab09aaa09aa909aa609a9909a9509a9409a8e09a8d09a8909a8309a7209a6b09a6a09a6909a6809a6709a66,
  0x09ad909ad709ad609ad509ad409ad209ad009acf09ace09acd09aca09ac909ac809ac709ac609ac409ac309abf09abe09abd09abb09ab909ab509ab4,
  0x09af709af609af509af409af309af209af109af009aee09aec09aea09ae909ae809ae709ae509ae409ae309ae209ae009ade09add09adc09adb09ada,
  0x087cb087b3087b5087ac087e5087ab0878308797087ad0878508788087c609b0609b0509b0409b0209b0109b0009aff09afe09afd09afc09afa09af8,
  0x07afd07afa0821007f4507f4407f4207f360883c08839088210881b0880a087fe0881308816087ee087e0087ea087db087ca087c0087d1087bd087d3,
  0x07b4c07b7507b4507b5a07b5807b1e07b3e07b3307b2407b2507b2007b3107b2e07b1907b2a07b3807b4707b0f07b2b07b0a07b1507b0407b0307b08,
  0x07bdd07bcc07bc107bd107bb407bab07ba207b9c07baa07b8507ba807b9d07bac07bb807ba707ba607b9007b7107b7207b6207b7b07b6e07b6007b5d,
  0x09b1709b1609b1509b1409b1209b1109b1009b0e09b0d09b0c09b0b09b0a09b0909b0707c0b07c1607c0f07bfc07bfe07c0c07bea07be607be507bda,
  0x09b3309b3109b3009b2e09b2d09b2c09b2b09b2a09b2909b2809b2709b2609b2509b2409b2209b2109b2009b1e09b1d09b1c09b1b09b1a09b1909b18,
  0x09b5909b5809b5709b5609b5509b5309b5209b5009b4e09b4c09b4b09b4a09b4609b4009b3f09b3e09b3d09b3a09b3909b3809b3709b3609b3509b34,
  0x09b7109b7009b6f09b6e09b6d09b6c09b6b09b6a09b6909b6809b6709b6609b6509b6409b6309b6209b6109b6009b5f09b5e09b5d09b5c09b5b09b5a,
  0x082220822108844081ec082040820208201081fe07c4007c4107c3807c2607c2a07c1f09b7b09b7a09b7909b7809b7709b7609b7509b7409b7309b72,
  0x07f9d0895e088df088d808888088850887e082680825f0825a0824f0824b08249082440823e08234082330823b082380822b082280822f0822d08223,
  0x0826e07ce807cd707cc507cc807ccd07ccc07cc707cc107cbd07cbc07cb207ca207c9e07c9c07c9d07c910654907c7c07fb207fb007faf07fa707f9f,
  0x08d6708db108d9108d9408d8408d7309eb409eb807e9b07e4707dae07da607d7707cf807ff307fee07fe907fe607fe107fe507fd507fce07fbf066a8,
  0x09b8b09b8a09b8909b8809b8709b8609b8509b8409b8309b8209b8109b8009b7f09b7e09b7d09b7c091640914f0914e091500914a08c4908c4708d6d,
  0x09ba309ba209ba109ba009b9f09b9e09b9d09b9c09b9b09b9a09b9909b9809b9709b9609b9509b9409b9309b9209b9109b9009b8f09b8e09b8d09b8c,
  0x09bbb09bba09bb909bb809bb709bb609bb509bb409bb309bb209bb109bb009baf09bae09bad09bac09bab09baa09ba909ba809ba709ba609ba509ba4,
  0x09bd309bd209bd109bd009bcf09bce09bcd09bcc09bcb09bca09bc909bc809bc709bc609bc509bc409bc309bc209bc109bc009bbf09bbe09bbd09bbc,
  0x091a2091910918d09190091850918c0917909174091720917e0917d0916f0916909170091610916209bdb09bda09bd909bd809bd709bd609bd509bd4,
  0x08dde08dda08dd708dd608dc408dba08dbc08dbf08db508e6908e5908e0508deb08db809e7e08c55091ba091b4091b5091af091ae091ad091aa091a3,
  0x08e3508e3908e4008e3a08e2f08e2308e2e08e2c08e1f08e1d08e1408dfd08e0908de408dfb08df908de308df808df708dec08dc608ddb08dcf08dce,
  0x08c9808c8508c8a08c8208c7808e9e08e9c08e9008e9408e8f08e8508e7408e6f08e7c08e7608e7008e4a08e5208e5108e4208e4108e4908e3108e3d,
  0x09bed09bec09beb09bea09be909be809be709be609be509be409be309be209be109be009bdf09bde09bdd09bdc089dc089da089de089d60659b08c94,
  0x09c0509c0409c0309c0209c0109c0009bff09bfe09bfd09bfc09bfb09bfa09bf909bf809bf709bf609bf509bf409bf309bf209bf109bf009bef09bee,
  0x09c1d09c1c09c1b09c1a09c1909c1809c1709c1609c1509c1409c1309c1209c1109c1009c0f09c0e09c0d09c0c09c0b09c0a09c0909c0809c0709c06,
  0x09c3509c3409c3309c3209c3109c3009c2f09c2e09c2d09c2c09c2b09c2a09c2909c2809c2709c2609c2509c2409c2309c2209c2109c2009c1f09c1e,
  0x0973e097300972d0972a0970e0970f097080970109706096ef096f3096e90975308b2608a3e089ef089eb089e509c3b09c3a09c3909c3809c3709c36,
  0x0936a0933e092c8092ae0928e096e0077bf096d2096ce096bd096bc096b909f0d09f0b09efe09f8c09f8a09f8909f8809f8709f8609f8509f8309f80,
  0x09ca109ca009c9f09c9e09c9b09c9a09c9509c9409c9209c9109c9009c8e09c8b07a2309c8809c8709c8609c8509c8209c7f0946b0943e0938f093ca,
  0x09cc509cc409cbd09cbc09cbb09cba09cb709cb609cb509cb409cb309cb209cb109cb009cae09cad09cab09ca909ca809ca709ca609ca509ca309ca2,
  0x09c4f09c4e09c4d09c4c09c4b09c4a09c4909c4809c4709c4609c4509c4409c4309c4209c4109c4009c3f09c3e09c3d09c3c09ccb09cca09cc709cc6,
  0x09c6709c6609c6509c6409c6309c6209c6109c6009c5f09c5e09c5d09c5c09c5b09c5a09c5909c5809c5709c5609c5509c5409c5309c5209c5109c50,
  0x09c8309c8009c7e09c7d09c7b09c7a09c7909c7809c7709c7609c7509c7409c7309c7209c7109c7009c6f09c6e09c6d09c6c09c6b09c6a09c6909c68,
  0x09cd209cd109cc909cc809cc209cc109cc009cbf09cbe09cb909caf09cac09caa09c9d09c9909c9809c9709c9609c9309c8f09c8c09c8a09c8909c84,
  0x097940979209791097850977c09ce209cdf09cdd09cdc09cd909cd809cd709cd509cd409cd309cd009ccf09cce09ccd09ccc09ce109ce009cdb09cda,
  0x09b4809b4909b4709b4309b4509ad109acc09acb09ac209ac509ac009ac109abc09aba09ab609e5809ab709ab009ab1097b4097b2097a3097ab097af,
  0x09e8207e3b09ebe09ebd09b2309b1f09b1309b0f09b0809af909aed09afb09aeb09aef09ae609ae109adf09954099550992e0990d098e809b5109b4d,
  0x09f3d09f3709f3909f2f09f2c09f2209eef09eea09ee509ee709ee909ee209edf09ee009edd09edc09edb09e9f09e9d093d609e9209e8b09e8809e87,
  0x09cf809cf709cf609cf509cf409cf309cf209cf109cf009cef09cee09ced09cec09ceb09cea09ce909ce809ce709ce609ce509ce409ce309f4409f3e,
  0x09d1009d0f09d0e09d0d09d0c09d0b09d0a09d0909d0809d0709d0609d0509d0409d0309d0209d0109d0009cff09cfe09cfd09cfc09cfb09cfa09cf9,
  0x09d2809d2709d2609d2509d2409d2309d2209d2109d2009d1f09d1e09d1d09d1c09d1b09d1a09d1909d1809d1709d1609d1509d1409d1309d1209d11,
  0x09d4009d3f09d3e09d3d09d3c09d3b09d3a09d3909d3809d3709d3609d3509d3409d3309d3209d3109d3009d2f09d2e09d2d09d2c09d2b09d2a09d29,
  0x0e2490e2480e2470e2460e2450e2440e2430e2420e2410e2400e23f0e23e0e23d0e23c0e23b0e23a0e2390e2380e2370e2360e2350e23409d4209d41,
  0x0e2610e2600e25f0e25e0e25d0e25c0e25b0e25a0e2590e2580e2570e2560e2550e2540e2530e2520e2510e2500e24f0e24e0e24d0e24c0e24b0e24a,
  0x0e2790e2780e2770e2760e2750e2740e2730e2720e2710e2700e26f0e26e0e26d0e26c0e26b0e26a0e2690e2680e2670e2660e2650e2640e2630e262,
  0x0e2910e2900e28f0e28e0e28d0e28c0e28b0e28a0e2890e2880e2870e2860e2850e2840e2830e2820e2810e2800e27f0e27e0e27d0e27c0e27b0e27a,
  0x09d5a09d5909d5809d5709d5609d5509d5409d5309d5209d5109d5009d4f09d4e09d4d09d4c09d4b09d4a09d4909d4809d4709d4609d4509d4409d43,
  0x09d7209d7109d7009d6f09d6e09d6d09d6c09d6b09d6a09d6909d6809d6709d6609d6509d6409d6309d6209d6109d6009d5f09d5e09d5d09d5c09d5b,
  0x09d8a09d8909d8809d8709d8609d8509d8409d8309d8209d8109d8009d7f09d7e09d7d09d7c09d7b09d7a09d7909d7809d7709d7609d7509d7409d73,
  0x09da209da109da009d9f09d9e09d9d09d9c09d9b09d9a09d9909d9809d9709d9609d9509d9409d9309d9209d9109d9009d8f09d8e09d8d09d8c09d8b,
  0x0e2a90e2a80e2a70e2a60e2a50e2a40e2a30e2a20e2a10e2a00e29f0e29e0e29d0e29c0e29b0e29a0e2990e2980e2970e2960e2950e2940e2930e292,
  0x0e2c10e2c00e2bf0e2be0e2bd0e2bc0e2bb0e2ba0e2b90e2b80e2b70e2b60e2b50e2b40e2b30e2b20e2b10e2b00e2af0e2ae0e2ad0e2ac0e2ab0e2aa,
  0x0e2d90e2d80e2d70e2d60e2d50e2d40e2d30e2d20e2d10e2d00e2cf0e2ce0e2cd0e2cc0e2cb0e2ca0e2c90e2c80e2c70e2c60e2c50e2c40e2c30e2c2,
  0x09da409da30e2ef0e2ee0e2ed0e2ec0e2eb0e2ea0e2e90e2e80e2e70e2e60e2e50e2e40e2e30e2e20e2e10e2e00e2df0e2de0e2dd0e2dc0e2db0e2da,
  0x09dbc09dbb09dba09db909db809db709db609db509db409db309db209db109db009daf09dae09dad09dac09dab09daa09da909da809da709da609da5,
  0x09dd409dd309dd209dd109dd009dcf09dce09dcd09dcc09dcb09dca09dc909dc809dc709dc609dc509dc409dc309dc209dc109dc009dbf09dbe09dbd,
  0x09dec09deb09dea09de909de809de709de609de509de409de309de209de109de009ddf09dde09ddd09ddc09ddb09dda09dd909dd809dd709dd609dd5,
  0x0e2f10e2f009e0209e0109e0009dff09dfe09dfd09dfc09dfb09dfa09df909df809df709df609df509df409df309df209df109df009def09dee09ded,
  0x0e3090e3080e3070e3060e3050e3040e3030e3020e3010e3000e2ff0e2fe0e2fd0e2fc0e2fb0e2fa0e2f90e2f80e2f70e2f60e2f50e2f40e2f30e2f2,
  0x0e3210e3200e31f0e31e0e31d0e31c0e31b0e31a0e3190e3180e3170e3160e3150e3140e3130e3120e3110e3100e30f0e30e0e30d0e30c0e30b0e30a,
  0x0e3390e3380e3370e3360e3350e3340e3330e3320e3310e3300e32f0e32e0e32d0e32c0e32b0e32a0e3290e3280e3270e3260e3250e3240e3230e322,
  0x09e0609e0509e0409e030e34d0e34c0e34b0e34a0e3490e3480e3470e3460e3450e3440e3430e3420e3410e3400e33f0e33e0e33d0e33c0e33b0e33a,
  0x09e1e09e1d09e1c09e1b09e1a09e1909e1809e1709e1609e1509e1409e1309e1209e1109e1009e0f09e0e09e0d09e0c09e0b09e0a09e0909e0809e07,
  0x09e7209e6f09e6e09e6509e6209e6109e6009e5f09e5d09e5909e5609e5409e5309e5209e5009e4d09e4009e3c09e3b09e3409e3009e2e09e2709e24,
  0x09e9109e9009e8f09e8e09e8d09e8c09e8a09e8909e8609e8509e8409e8309e8109e8009e7d09e7c09e7b09e7a09e7909e7809e7709e7609e7509e74,
  0x0e3510e3500e34f0e34e09eaa09ea909ea809ea709ea509ea409ea309ea209ea109ea009e9e09e9c09e9b09e9a09e9909e9809e9709e9609e9509e94,
  0x0e3690e3680e3670e3660e3650e3640e3630e3620e3610e3600e35f0e35e0e35d0e35c0e35b0e35a0e3590e3580e3570e3560e3550e3540e3530e352,
  0x0e3810e3800e37f0e37e0e37d0e37c0e37b0e37a0e3790e3780e3770e3760e3750e3740e3730e3720e3710e3700e36f0e36e0e36d0e36c0e36b0e36a,
  0x0e3990e3980e3970e3960e3950e3940e3930e3920e3910e3900e38f0e38e0e38d0e38c0e38b0e38a0e3890e3880e3870e3860e3850e3840e3830e382,
  0x09eb009eaf09eae09ead09eac09eab0e3ab0e3aa0e3a90e3a80e3a70e3a60e3a50e3a40e3a30e3a20e3a10e3a00e39f0e39e0e39d0e39c0e39b0e39a,
  0x09ed309ed209ed009ecc09ecb09eca09ec809ec709ec609ec509ec309ec209ec109ec009ebf09ebc09eba09eb909eb709eb609eb509eb309eb209eb1,
  0x09ef809ef709ef609ef509ef409ef309ef209ef109ef009eee09eed09eec09eeb09ee809ee609ee409ee309ee109ede09eda09ed909ed709ed609ed5,
  0x09f1b09f1a09f1809f1609f1509f1409f1209f1109f0f09f0c09f0a09f0909f0809f0709f0609f0509f0409f0309f0209f0109f0009eff09efd09efa,
  0x0e3b10e3b00e3af0e3ae0e3ad0e3ac09f3109f3009f2e09f2d09f2b09f2a09f2909f2809f2709f2609f2509f2409f2309f2109f1f09f1e09f1d09f1c,
  0x0e3c90e3c80e3c70e3c60e3c50e3c40e3c30e3c20e3c10e3c00e3bf0e3be0e3bd0e3bc0e3bb0e3ba0e3b90e3b80e3b70e3b60e3b50e3b40e3b30e3b2,
  0x0e3e10e3e00e3df0e3de0e3dd0e3dc0e3db0e3da0e3d90e3d80e3d70e3d60e3d50e3d40e3d30e3d20e3d10e3d00e3cf0e3ce0e3cd0e3cc0e3cb0e3ca,
  0x0e3f90e3f80e3f70e3f60e3f50e3f40e3f30e3f20e3f10e3f00e3ef0e3ee0e3ed0e3ec0e3eb0e3ea0e3e90e3e80e3e70e3e60e3e50e3e40e3e30e3e2,
  0x09f3c09f3a09f3809f3609f3509f3409f3309f320e4090e4080e4070e4060e4050e4040e4030e4020e4010e4000e3ff0e3fe0e3fd0e3fc0e3fb0e3fa,
  0x09f5909f5809f5709f5609f5509f5409f5309f5209f4f09f4e09f4d09f4c09f4b09f4a09f4909f4809f4709f4609f4509f4309f4209f4109f4009f3f,
  0x09f7109f7009f6f09f6e09f6d09f6c09f6b09f6a09f6909f6809f6709f6609f6509f6409f6309f6209f6109f6009f5f09f5e09f5d09f5c09f5b09f5a,
  0x09f9509f9409f9309f9209f9109f9009f8f09f8e09f8d09f8209f8109f7e09f7d09f7c09f7b09f7a09f7909f7809f7709f7609f7509f7409f7309f72,
  0x0e4110e4100e40f0e40e0e40d0e40c0e40b0e40a0f9f10f9e70f9950f9790f92c09fa509fa409fa309fa209fa109f9e09f9d09f9c09f9809f9709f96,
  0x0e4290e4280e4270e4260e4250e4240e4230e4220e4210e4200e41f0e41e0e41d0e41c0e41b0e41a0e4190e4180e4170e4160e4150e4140e4130e412,
  0x0e4410e4400e43f0e43e0e43d0e43c0e43b0e43a0e4390e4380e4370e4360e4350e4340e4330e4320e4310e4300e42f0e42e0e42d0e42c0e42b0e42a,
  0x0e4590e4580e4570e4560e4550e4540e4530e4520e4510e4500e44f0e44e0e44d0e44c0e44b0e44a0e4490e4480e4470e4460e4450e4440e4430e442,
  0x0fa200fa1f0fa180fa140fa130fa110fa0f0fa0e0fa0d0fa0c0e4670e4660e4650e4640e4630e4620e4610e4600e45f0e45e0e45d0e45c0e45b0e45a,
  0x0e826039180396e02e9702e8c0360e0361a0359e0e81e02e8b02e88034470347302e840e8180e8170e81602e810fa290fa280fa270fa240fa230fa21,
  0x02ebb043ac043b10e83b02eb702eb602eb30433702eae0415f0405602eaa0e8320e83102ea703ce003c6e03b4e0e82c0e82b039d003a73039df039cf,
  0x04ca30e8550e854049b6049b70499b0499f049860498504983049820497d0497a0494702eca0478d0477c04729047230e8430464c04661044d6043dd,
  0x0e4710e4700e46f0e46e0e46d0e46c0e46b0e46a0e4690e4680e86404dae04d1904d1804d1704d1604d1504d1404d1304ca204c7704ca104ca004c9f,
  0x0e4890e4880e4870e4860e4850e4840e4830e4820e4810e4800e47f0e47e0e47d0e47c0e47b0e47a0e4790e4780e4770e4760e4750e4740e4730e472,
  0x0e4a10e4a00e49f0e49e0e49d0e49c0e49b0e49a0e4990e4980e4970e4960e4950e4940e4930e4920e4910e4900e48f0e48e0e48d0e48c0e48b0e48a,
  0x0e4b90e4b80e4b70e4b60e4b50e4b40e4b30e4b20e4b10e4b00e4af0e4ae0e4ad0e4ac0e4ab0e4aa0e4a90e4a80e4a70e4a60e4a50e4a40e4a30e4a2,
  0x0e4c50e4c40e4c30e4c20e4c10e4c00e4bf0e4be0e4bd0e4bc0e4bb0e4ba]

/-- `index_code_point_gb18030` (lib/whatwg/encoding/indexes_code_point.cpp:7), 23940 entries. -/
def cpGb18030 : Table := ⟨20, 23940, cpGb18030Data⟩

/-- Rows of `index_pointer_gb18030_0`. -/
def ptr0Gb18030Data : Nat := pack 480 [
  0x0012b0011b0011300101000fc000fa000f9000f7000f3000f2000ed000ec000ea000e9000e8000e1000e0000d7000b7000b1000b0000a8000a7000a4,
  0x00394003930039200391002d9002cb002ca002c9002c70026100251001f9001dc001da001d8001d6001d4001d2001d0001ce0016b0014d0014800144,
  0x003b4003b3003b2003b1003a9003a8003a7003a6003a5003a4003a3003a1003a00039f0039e0039d0039c0039b0039a0039900398003970039600395,
  0x00412004110041000401003c9003c8003c7003c6003c5003c4003c3003c1003c0003bf003be003bd003bc003bb003ba003b9003b8003b7003b6003b5,
  0x0042a004290042800427004260042500424004230042200421004200041f0041e0041d0041c0041b0041a00419004180041700416004150041400413,
  0x0044200441004400043f0043e0043d0043c0043b0043a004390043800437004360043500434004330043200431004300042f0042e0042d0042c0042b,
  0x0201d0201c0201902018020160201502014020130201001e3f004510044f0044e0044d0044c0044b0044a00449004480044700446004450044400443,
  0x0216a021690216802167021660216502164021630216202161021600212102116021090210502103020ac0203b020350203302032020300202602025,
  0x0221a02215022110220f022080219902198021970219602193021920219102190021790217802177021760217502174021730217202171021700216b,
  0x02265022640226102260022520224c022480223d022370223602235022340222e0222b0222a0222902228022270222502223022200221f0221e0221d,
  0x02478024770247602475024740246902468024670246602465024640246302462024610246002312022bf022a502299022950226f0226e0226702266,
  0x024900248f0248e0248d0248c0248b0248a024890248802487024860248502484024830248202481024800247f0247e0247d0247c0247b0247a02479,
  0x0250c0250b0250a025090250802507025060250502504025030250202501025000249b0249a024990249802497024960249502494024930249202491,
  0x02524025230252202521025200251f0251e0251d0251c0251b0251a025190251802517025160251502514025130251202511025100250f0250e0250d,
  0x0253c0253b0253a025390253802537025360253502534025330253202531025300252f0252e0252d0252c0252b0252a0252902528025270252602525,
  0x0255802557025560255502554025530255202551025500254b0254a025490254802547025460254502544025430254202541025400253f0253e0253d,
  0x025700256f0256e0256d0256c0256b0256a025690256802567025660256502564025630256202561025600255f0255e0255d0255c0255b0255a02559,
  0x025b2025a1025a00259502594025930258f0258e0258d0258c0258b0258a025890258802587025860258502584025830258202581025730257202571,
  0x02ea702e9702e8c02e8b02e8802e8402e810264202640026090260602605025e5025e4025e3025e2025cf025ce025cb025c7025c6025bd025bc025b3,
  0x030050300303002030010300002ffb02ffa02ff902ff802ff702ff602ff502ff402ff302ff202ff102ff002eca02ebb02eb702eb602eb302eae02eaa,
  0x030240302303022030210301e0301d03017030160301503014030130301203011030100300f0300e0300d0300c0300b0300a03009030080300703006,
  0x0305203051030500304f0304e0304d0304c0304b0304a0304903048030470304603045030440304303042030410303e0302903028030270302603025,
  0x0306a030690306803067030660306503064030630306203061030600305f0305e0305d0305c0305b0305a03059030580305703056030550305403053,
  0x0308203081030800307f0307e0307d0307c0307b0307a030790307803077030760307503074030730307203071030700306f0306e0306d0306c0306b,
  0x030a3030a2030a10309e0309d0309c0309b030930309203091030900308f0308e0308d0308c0308b0308a03089030880308703086030850308403083,
  0x030bb030ba030b9030b8030b7030b6030b5030b4030b3030b2030b1030b0030af030ae030ad030ac030ab030aa030a9030a8030a7030a6030a5030a4,
  0x030d3030d2030d1030d0030cf030ce030cd030cc030cb030ca030c9030c8030c7030c6030c5030c4030c3030c2030c1030c0030bf030be030bd030bc,
  0x030eb030ea030e9030e8030e7030e6030e5030e4030e3030e2030e1030e0030df030de030dd030dc030db030da030d9030d8030d7030d6030d5030d4,
  0x0310e0310d0310c0310b0310a0310903108031070310603105030fe030fd030fc030f6030f5030f4030f3030f2030f1030f0030ef030ee030ed030ec,
  0x031260312503124031230312203121031200311f0311e0311d0311c0311b0311a031190311803117031160311503114031130311203111031100310f,
  0x033d1033ce033c4033a10339e0339d0339c0338f0338e032a30323103229032280322703226032250322403223032220322103220031290312803127,
  0x0464c044d6043dd043b1043ac043370415f0405603ce003c6e03b4e03a73039df039d0039cf0396e039180361a0360e0359e0347303447033d5033d2,
  0x04d1404d1304ca304ca204ca104ca004c9f04c77049b7049b60499f0499b049860498504983049820497d0497a049470478d0477c047290472304661,
  0x04e1104e1004e0f04e0e04e0d04e0c04e0b04e0a04e0904e0804e0704e0604e0504e0404e0304e0204e0104e0004dae04d1904d1804d1704d1604d15,
  0x04e2904e2804e2704e2604e2504e2404e2304e2204e2104e2004e1f04e1e04e1d04e1c04e1b04e1a04e1904e1804e1704e1604e1504e1404e1304e12,
  0x04e4104e4004e3f04e3e04e3d04e3c04e3b04e3a04e3904e3804e3704e3604e3504e3404e3304e3204e3104e3004e2f04e2e04e2d04e2c04e2b04e2a,
  0x04e5904e5804e5704e5604e5504e5404e5304e5204e5104e5004e4f04e4e04e4d04e4c04e4b04e4a04e4904e4804e4704e4604e4504e4404e4304e42,
  0x04e7104e7004e6f04e6e04e6d04e6c04e6b04e6a04e6904e6804e6704e6604e6504e6404e6304e6204e6104e6004e5f04e5e04e5d04e5c04e5b04e5a,
  0x04e8904e8804e8704e8604e8504e8404e8304e8204e8104e8004e7f04e7e04e7d04e7c04e7b04e7a04e7904e7804e7704e7604e7504e7404e7304e72,
  0x04ea104ea004e9f04e9e04e9d04e9c04e9b04e9a04e9904e9804e9704e9604e9504e9404e9304e9204e9104e9004e8f04e8e04e8d04e8c04e8b04e8a,
  0x04eb904eb804eb704eb604eb504eb404eb304eb204eb104eb004eaf04eae04ead04eac04eab04eaa04ea904ea804ea704ea604ea504ea404ea304ea2,
  0x04ed104ed004ecf04ece04ecd04ecc04ecb04eca04ec904ec804ec704ec604ec504ec404ec304ec204ec104ec004ebf04ebe04ebd04ebc04ebb04eba,
  0x04ee904ee804ee704ee604ee504ee404ee304ee204ee104ee004edf04ede04edd04edc04edb04eda04ed904ed804ed704ed604ed504ed404ed304ed2,
  0x04f0104f0004eff04efe04efd04efc04efb04efa04ef904ef804ef704ef604ef504ef404ef304ef204ef104ef004eef04eee04eed04eec04eeb04eea,
  0x04f1904f1804f1704f1604f1504f1404f1304f1204f1104f1004f0f04f0e04f0d04f0c04f0b04f0a04f0904f0804f0704f0604f0504f0404f0304f02,
  0x04f3104f3004f2f04f2e04f2d04f2c04f2b04f2a04f2904f2804f2704f2604f2504f2404f2304f2204f2104f2004f1f04f1e04f1d04f1c04f1b04f1a,
  0x04f4904f4804f4704f4604f4504f4404f4304f4204f4104f4004f3f04f3e04f3d04f3c04f3b04f3a04f3904f3804f3704f3604f3504f3404f3304f32,
  0x04f6104f6004f5f04f5e04f5d04f5c04f5b04f5a04f5904f5804f5704f5604f5504f5404f5304f5204f5104f5004f4f04f4e04f4d04f4c04f4b04f4a,
  0x04f7904f7804f7704f7604f7504f7404f7304f7204f7104f7004f6f04f6e04f6d04f6c04f6b04f6a04f6904f6804f6704f6604f6504f6404f6304f62,
  0x04f9104f9004f8f04f8e04f8d04f8c04f8b04f8a04f8904f8804f8704f8604f8504f8404f8304f8204f8104f8004f7f04f7e04f7d04f7c04f7b04f7a,
  0x04fa904fa804fa704fa604fa504fa404fa304fa204fa104fa004f9f04f9e04f9d04f9c04f9b04f9a04f9904f9804f9704f9604f9504f9404f9304f92,
  0x04fc104fc004fbf04fbe04fbd04fbc04fbb04fba04fb904fb804fb704fb604fb504fb404fb304fb204fb104fb004faf04fae04fad04fac04fab04faa,
  0x04fd904fd804fd704fd604fd504fd404fd304fd204fd104fd004fcf04fce04fcd04fcc04fcb04fca04fc904fc804fc704fc604fc504fc404fc304fc2,
  0x04ff104ff004fef04fee04fed04fec04feb04fea04fe904fe804fe704fe604fe504fe404fe304fe204fe104fe004fdf04fde04fdd04fdc04fdb04fda,
  0x0500905008050070500605005050040500305002050010500004fff04ffe04ffd04ffc04ffb04ffa04ff904ff804ff704ff604ff504ff404ff304ff2,
  0x05021050200501f0501e0501d0501c0501b0501a050190501805017050160501505014050130501205011050100500f0500e0500d0500c0500b0500a,
  0x050390503805037050360503505034050330503205031050300502f0502e0502d0502c0502b0502a0502905028050270502605025050240502305022,
  0x05051050500504f0504e0504d0504c0504b0504a050490504805047050460504505044050430504205041050400503f0503e0503d0503c0503b0503a,
  0x050690506805067050660506505064050630506205061050600505f0505e0505d0505c0505b0505a0505905058050570505605055050540505305052,
  0x05081050800507f0507e0507d0507c0507b0507a050790507805077050760507505074050730507205071050700506f0506e0506d0506c0506b0506a,
  0x050990509805097050960509505094050930509205091050900508f0508e0508d0508c0508b0508a0508905088050870508605085050840508305082,
  0x050b1050b0050af050ae050ad050ac050ab050aa050a9050a8050a7050a6050a5050a4050a3050a2050a1050a00509f0509e0509d0509c0509b0509a,
  0x050c9050c8050c7050c6050c5050c4050c3050c2050c1050c0050bf050be050bd050bc050bb050ba050b9050b8050b7050b6050b5050b4050b3050b2,
  0x050e1050e0050df050de050dd050dc050db050da050d9050d8050d7050d6050d5050d4050d3050d2050d1050d0050cf050ce050cd050cc050cb050ca,
  0x050f9050f8050f7050f6050f5050f4050f3050f2050f1050f0050ef050ee050ed050ec050eb050ea050e9050e8050e7050e6050e5050e4050e3050e2,
  0x05111051100510f0510e0510d0510c0510b0510a05109051080510705106051050510405103051020510105100050ff050fe050fd050fc050fb050fa,
  0x051290512805127051260512505124051230512205121051200511f0511e0511d0511c0511b0511a0511905118051170511605115051140511305112,
  0x05141051400513f0513e0513d0513c0513b0513a051390513805137051360513505134051330513205131051300512f0512e0512d0512c0512b0512a,
  0x051590515805157051560515505154051530515205151051500514f0514e0514d0514c0514b0514a0514905148051470514605145051440514305142,
  0x05171051700516f0516e0516d0516c0516b0516a051690516805167051660516505164051630516205161051600515f0515e0515d0515c0515b0515a,
  0x051890518805187051860518505184051830518205181051800517f0517e0517d0517c0517b0517a0517905178051770517605175051740517305172,
  0x051a1051a00519f0519e0519d0519c0519b0519a051990519805197051960519505194051930519205191051900518f0518e0518d0518c0518b0518a,
  0x051b9051b8051b7051b6051b5051b4051b3051b2051b1051b0051af051ae051ad051ac051ab051aa051a9051a8051a7051a6051a5051a4051a3051a2,
  0x051d1051d0051cf051ce051cd051cc051cb051ca051c9051c8051c7051c6051c5051c4051c3051c2051c1051c0051bf051be051bd051bc051bb051ba,
  0x051e9051e8051e7051e6051e5051e4051e3051e2051e1051e0051df051de051dd051dc051db051da051d9051d8051d7051d6051d5051d4051d3051d2,
  0x0520105200051ff051fe051fd051fc051fb051fa051f9051f8051f7051f6051f5051f4051f3051f2051f1051f0051ef051ee051ed051ec051eb051ea,
  0x052190521805217052160521505214052130521205211052100520f0520e0520d0520c0520b0520a0520905208052070520605205052040520305202,
  0x05231052300522f0522e0522d0522c0522b0522a052290522805227052260522505224052230522205221052200521f0521e0521d0521c0521b0521a,
  0x052490524805247052460524505244052430524205241052400523f0523e0523d0523c0523b0523a0523905238052370523605235052340523305232,
  0x05261052600525f0525e0525d0525c0525b0525a052590525805257052560525505254052530525205251052500524f0524e0524d0524c0524b0524a,
  0x052790527805277052760527505274052730527205271052700526f0526e0526d0526c0526b0526a0526905268052670526605265052640526305262,
  0x05291052900528f0528e0528d0528c0528b0528a052890528805287052860528505284052830528205281052800527f0527e0527d0527c0527b0527a,
  0x052a9052a8052a7052a6052a5052a4052a3052a2052a1052a00529f0529e0529d0529c0529b0529a0529905298052970529605295052940529305292,
  0x052c1052c0052bf052be052bd052bc052bb052ba052b9052b8052b7052b6052b5052b4052b3052b2052b1052b0052af052ae052ad052ac052ab052aa,
  0x052d9052d8052d7052d6052d5052d4052d3052d2052d1052d0052cf052ce052cd052cc052cb052ca052c9052c8052c7052c6052c5052c4052c3052c2,
  0x052f1052f0052ef052ee052ed052ec052eb052ea052e9052e8052e7052e6052e5052e4052e3052e2052e1052e0052df052de052dd052dc052db052da,
  0x05309053080530705306053050530405303053020530105300052ff052fe052fd052fc052fb052fa052f9052f8052f7052f6052f5052f4052f3052f2,
  0x05321053200531f0531e0531d0531c0531b0531a053190531805317053160531505314053130531205311053100530f0530e0530d0530c0530b0530a,
  0x053390533805337053360533505334053330533205331053300532f0532e0532d0532c0532b0532a0532905328053270532605325053240532305322,
  0x05351053500534f0534e0534d0534c0534b0534a053490534805347053460534505344053430534205341053400533f0533e0533d0533c0533b0533a,
  0x053690536805367053660536505364053630536205361053600535f0535e0535d0535c0535b0535a0535905358053570535605355053540535305352,
  0x05381053800537f0537e0537d0537c0537b0537a053790537805377053760537505374053730537205371053700536f0536e0536d0536c0536b0536a,
  0x053990539805397053960539505394053930539205391053900538f0538e0538d0538c0538b0538a0538905388053870538605385053840538305382,
  0x053b1053b0053af053ae053ad053ac053ab053aa053a9053a8053a7053a6053a5053a4053a3053a2053a1053a00539f0539e0539d0539c0539b0539a,
  0x053c9053c8053c7053c6053c5053c4053c3053c2053c1053c0053bf053be053bd053bc053bb053ba053b9053b8053b7053b6053b5053b4053b3053b2,
  0x053e1053e0053df053de053dd053dc053db053da053d9053d8053d7053d6053d5053d4053d3053d2053d1053d0053cf053ce053cd053cc053cb053ca,
  0x053f9053f8053f7053f6053f5053f4053f3053f2053f1053f0053ef053ee053ed053ec053eb053ea053e9053e8053e7053e6053e5053e4053e3053e2,
  0x05411054100540f0540e0540d0540c0540b0540a05409054080540705406054050540405403054020540105400053ff053fe053fd053fc053fb053fa,
  0x054290542805427054260542505424054230542205421054200541f0541e0541d0541c0541b0541a0541905418054170541605415054140541305412,
  0x05441054400543f0543e0543d0543c0543b0543a054390543805437054360543505434054330543205431054300542f0542e0542d0542c0542b0542a,
  0x054590545805457054560545505454054530545205451054500544f0544e0544d0544c0544b0544a0544905448054470544605445054440544305442,
  0x05471054700546f0546e0546d0546c0546b0546a054690546805467054660546505464054630546205461054600545f0545e0545d0545c0545b0545a,
  0x054890548805487054860548505484054830548205481054800547f0547e0547d0547c0547b0547a0547905478054770547605475054740547305472,
  0x054a1054a00549f0549e0549d0549c0549b0549a054990549805497054960549505494054930549205491054900548f0548e0548d0548c0548b0548a,
  0x054b9054b8054b7054b6054b5054b4054b3054b2054b1054b0054af054ae054ad054ac054ab054aa054a9054a8054a7054a6054a5054a4054a3054a2,
  0x054d1054d0054cf054ce054cd054cc054cb054ca054c9054c8054c7054c6054c5054c4054c3054c2054c1054c0054bf054be054bd054bc054bb054ba,
  0x054e9054e8054e7054e6054e5054e4054e3054e2054e1054e0054df054de054dd054dc054db054da054d9054d8054d7054d6054d5054d4054d3054d2,
  0x0550105500054ff054fe054fd054fc054fb054fa054f9054f8054f7054f6054f5054f4054f3054f2054f1054f0054ef054ee054ed054ec054eb054ea,
  0x055190551805517055160551505514055130551205511055100550f0550e0550d0550c0550b0550a0550905508055070550605505055040550305502,
  0x05531055300552f0552e0552d0552c0552b0552a055290552805527055260552505524055230552205521055200551f0551e0551d0551c0551b0551a,
  0x055490554805547055460554505544055430554205541055400553f0553e0553d0553c0553b0553a0553905538055370553605535055340553305532,
  0x05561055600555f0555e0555d0555c0555b0555a055590555805557055560555505554055530555205551055500554f0554e0554d0554c0554b0554a,
  0x055790557805577055760557505574055730557205571055700556f0556e0556d0556c0556b0556a0556905568055670556605565055640556305562,
  0x05591055900558f0558e0558d0558c0558b0558a055890558805587055860558505584055830558205581055800557f0557e0557d0557c0557b0557a,
  0x055a9055a8055a7055a6055a5055a4055a3055a2055a1055a00559f0559e0559d0559c0559b0559a0559905598055970559605595055940559305592,
  0x055c1055c0055bf055be055bd055bc055bb055ba055b9055b8055b7055b6055b5055b4055b3055b2055b1055b0055af055ae055ad055ac055ab055aa,
  0x055d9055d8055d7055d6055d5055d4055d3055d2055d1055d0055cf055ce055cd055cc055cb055ca055c9055c8055c7055c6055c5055c4055c3055c2,
  0x055f1055f0055ef055ee055ed055ec055eb055ea055e9055e8055e7055e6055e5055e4055e3055e2055e1055e0055df055de055dd055dc055db055da,
  0x05609056080560705606056050560405603056020560105600055ff055fe055fd055fc055fb055fa055f9055f8055f7055f6055f5055f4055f3055f2,
  0x05621056200561f0561e0561d0561c0561b0561a056190561805617056160561505614056130561205611056100560f0560e0560d0560c0560b0560a,
  0x056390563805637056360563505634056330563205631056300562f0562e0562d0562c0562b0562a0562905628056270562605625056240562305622,
  0x05651056500564f0564e0564d0564c0564b0564a056490564805647056460564505644056430564205641056400563f0563e0563d0563c0563b0563a,
  0x056690566805667056660566505664056630566205661056600565f0565e0565d0565c0565b0565a0565905658056570565605655056540565305652,
  0x05681056800567f0567e0567d0567c0567b0567a056790567805677056760567505674056730567205671056700566f0566e0566d0566c0566b0566a,
  0x056990569805697056960569505694056930569205691056900568f0568e0568d0568c0568b0568a0568905688056870568605685056840568305682,
  0x056b1056b0056af056ae056ad056ac056ab056aa056a9056a8056a7056a6056a5056a4056a3056a2056a1056a00569f0569e0569d0569c0569b0569a,
  0x056c9056c8056c7056c6056c5056c4056c3056c2056c1056c0056bf056be056bd056bc056bb056ba056b9056b8056b7056b6056b5056b4056b3056b2,
  0x056e1056e0056df056de056dd056dc056db056da056d9056d8056d7056d6056d5056d4056d3056d2056d1056d0056cf056ce056cd056cc056cb056ca,
  0x056f9056f8056f7056f6056f5056f4056f3056f2056f1056f0056ef056ee056ed056ec056eb056ea056e9056e8056e7056e6056e5056e4056e3056e2,
  0x05711057100570f0570e0570d0570c0570b0570a05709057080570705706057050570405703057020570105700056ff056fe056fd056fc056fb056fa,
  0x057290572805727057260572505724057230572205721057200571f0571e0571d0571c0571b0571a0571905718057170571605715057140571305712,
  0x05741057400573f0573e0573d0573c0573b0573a057390573805737057360573505734057330573205731057300572f0572e0572d0572c0572b0572a,
  0x057590575805757057560575505754057530575205751057500574f0574e0574d0574c0574b0574a0574905748057470574605745057440574305742,
  0x05771057700576f0576e0576d0576c0576b0576a057690576805767057660576505764057630576205761057600575f0575e0575d0575c0575b0575a,
  0x057890578805787057860578505784057830578205781057800577f0577e0577d0577c0577b0577a0577905778057770577605775057740577305772,
  0x057a1057a00579f0579e0579d0579c0579b0579a057990579805797057960579505794057930579205791057900578f0578e0578d0578c0578b0578a,
  0x057b9057b8057b7057b6057b5057b4057b3057b2057b1057b0057af057ae057ad057ac057ab057aa057a9057a8057a7057a6057a5057a4057a3057a2,
  0x057d1057d0057cf057ce057cd057cc057cb057ca057c9057c8057c7057c6057c5057c4057c3057c2057c1057c0057bf057be057bd057bc057bb057ba,
  0x057e9057e8057e7057e6057e5057e4057e3057e2057e1057e0057df057de057dd057dc057db057da057d9057d8057d7057d6057d5057d4057d3057d2,
  0x0580105800057ff057fe057fd057fc057fb057fa057f9057f8057f7057f6057f5057f4057f3057f2057f1057f0057ef057ee057ed057ec057eb057ea,
  0x058190581805817058160581505814058130581205811058100580f0580e0580d0580c0580b0580a0580905808058070580605805058040580305802,
  0x05831058300582f0582e0582d0582c0582b0582a058290582805827058260582505824058230582205821058200581f0581e0581d0581c0581b0581a,
  0x058490584805847058460584505844058430584205841058400583f0583e0583d0583c0583b0583a0583905838058370583605835058340583305832,
  0x05861058600585f0585e0585d0585c0585b0585a058590585805857058560585505854058530585205851058500584f0584e0584d0584c0584b0584a,
  0x058790587805877058760587505874058730587205871058700586f0586e0586d0586c0586b0586a0586905868058670586605865058640586305862,
  0x05891058900588f0588e0588d0588c0588b0588a058890588805887058860588505884058830588205881058800587f0587e0587d0587c0587b0587a,
  0x058a9058a8058a7058a6058a5058a4058a3058a2058a1058a00589f0589e0589d0589c0589b0589a0589905898058970589605895058940589305892,
  0x058c1058c0058bf058be058bd058bc058bb058ba058b9058b8058b7058b6058b5058b4058b3058b2058b1058b0058af058ae058ad058ac058ab058aa,
  0x058d9058d8058d7058d6058d5058d4058d3058d2058d1058d0058cf058ce058cd058cc058cb058ca058c9058c8058c7058c6058c5058c4058c3058c2,
  0x058f1058f0058ef058ee058ed058ec058eb058ea058e9058e8058e7058e6058e5058e4058e3058e2058e1058e0058df058de058dd058dc058db058da,
  0x05909059080590705906059050590405903059020590105900058ff058fe058fd058fc058fb058fa058f9058f8058f7058f6058f5058f4058f3058f2,
  0x05921059200591f0591e0591d0591c0591b0591a059190591805917059160591505914059130591205911059100590f0590e0590d0590c0590b0590a,
  0x059390593805937059360593505934059330593205931059300592f0592e0592d0592c0592b0592a0592905928059270592605925059240592305922,
  0x05951059500594f0594e0594d0594c0594b0594a059490594805947059460594505944059430594205941059400593f0593e0593d0593c0593b0593a,
  0x059690596805967059660596505964059630596205961059600595f0595e0595d0595c0595b0595a0595905958059570595605955059540595305952,
  0x05981059800597f0597e0597d0597c0597b0597a059790597805977059760597505974059730597205971059700596f0596e0596d0596c0596b0596a,
  0x059990599805997059960599505994059930599205991059900598f0598e0598d0598c0598b0598a0598905988059870598605985059840598305982,
  0x059b1059b0059af059ae059ad059ac059ab059aa059a9059a8059a7059a6059a5059a4059a3059a2059a1059a00599f0599e0599d0599c0599b0599a,
  0x059c9059c8059c7059c6059c5059c4059c3059c2059c1059c0059bf059be059bd059bc059bb059ba059b9059b8059b7059b6059b5059b4059b3059b2,
  0x059e1059e0059df059de059dd059dc059db059da059d9059d8059d7059d6059d5059d4059d3059d2059d1059d0059cf059ce059cd059cc059cb059ca,
  0x059f9059f8059f7059f6059f5059f4059f3059f2059f1059f0059ef059ee059ed059ec059eb059ea059e9059e8059e7059e6059e5059e4059e3059e2,
  0x05a1105a1005a0f05a0e05a0d05a0c05a0b05a0a05a0905a0805a0705a0605a0505a0405a0305a0205a0105a00059ff059fe059fd059fc059fb059fa,
  0x05a2905a2805a2705a2605a2505a2405a2305a2205a2105a2005a1f05a1e05a1d05a1c05a1b05a1a05a1905a1805a1705a1605a1505a1405a1305a12,
  0x05a4105a4005a3f05a3e05a3d05a3c05a3b05a3a05a3905a3805a3705a3605a3505a3405a3305a3205a3105a3005a2f05a2e05a2d05a2c05a2b05a2a,
  0x05a5905a5805a5705a5605a5505a5405a5305a5205a5105a5005a4f05a4e05a4d05a4c05a4b05a4a05a4905a4805a4705a4605a4505a4405a4305a42,
  0x05a7105a7005a6f05a6e05a6d05a6c05a6b05a6a05a6905a6805a6705a6605a6505a6405a6305a6205a6105a6005a5f05a5e05a5d05a5c05a5b05a5a,
  0x05a8905a8805a8705a8605a8505a8405a8305a8205a8105a8005a7f05a7e05a7d05a7c05a7b05a7a05a7905a7805a7705a7605a7505a7405a7305a72,
  0x05aa105aa005a9f05a9e05a9d05a9c05a9b05a9a05a9905a9805a9705a9605a9505a9405a9305a9205a9105a9005a8f05a8e05a8d05a8c05a8b05a8a,
  0x05ab905ab805ab705ab605ab505ab405ab305ab205ab105ab005aaf05aae05aad05aac05aab05aaa05aa905aa805aa705aa605aa505aa405aa305aa2,
  0x05ad105ad005acf05ace05acd05acc05acb05aca05ac905ac805ac705ac605ac505ac405ac305ac205ac105ac005abf05abe05abd05abc05abb05aba,
  0x05ae905ae805ae705ae605ae505ae405ae305ae205ae105ae005adf05ade05add05adc05adb05ada05ad905ad805ad705ad605ad505ad405ad305ad2,
  0x05b0105b0005aff05afe05afd05afc05afb05afa05af905af805af705af605af505af405af305af205af105af005aef05aee05aed05aec05aeb05aea,
  0x05b1905b1805b1705b1605b1505b1405b1305b1205b1105b1005b0f05b0e05b0d05b0c05b0b05b0a05b0905b0805b0705b0605b0505b0405b0305b02,
  0x05b3105b3005b2f05b2e05b2d05b2c05b2b05b2a05b2905b2805b2705b2605b2505b2405b2305b2205b2105b2005b1f05b1e05b1d05b1c05b1b05b1a,
  0x05b4905b4805b4705b4605b4505b4405b4305b4205b4105b4005b3f05b3e05b3d05b3c05b3b05b3a05b3905b3805b3705b3605b3505b3405b3305b32,
  0x05b6105b6005b5f05b5e05b5d05b5c05b5b05b5a05b5905b5805b5705b5605b5505b5405b5305b5205b5105b5005b4f05b4e05b4d05b4c05b4b05b4a,
  0x05b7905b7805b7705b7605b7505b7405b7305b7205b7105b7005b6f05b6e05b6d05b6c05b6b05b6a05b6905b6805b6705b6605b6505b6405b6305b62,
  0x05b9105b9005b8f05b8e05b8d05b8c05b8b05b8a05b8905b8805b8705b8605b8505b8405b8305b8205b8105b8005b7f05b7e05b7d05b7c05b7b05b7a,
  0x05ba905ba805ba705ba605ba505ba405ba305ba205ba105ba005b9f05b9e05b9d05b9c05b9b05b9a05b9905b9805b9705b9605b9505b9405b9305b92,
  0x05bc105bc005bbf05bbe05bbd05bbc05bbb05bba05bb905bb805bb705bb605bb505bb405bb305bb205bb105bb005baf05bae05bad05bac05bab05baa,
  0x05bd905bd805bd705bd605bd505bd405bd305bd205bd105bd005bcf05bce05bcd05bcc05bcb05bca05bc905bc805bc705bc605bc505bc405bc305bc2,
  0x05bf105bf005bef05bee05bed05bec05beb05bea05be905be805be705be605be505be405be305be205be105be005bdf05bde05bdd05bdc05bdb05bda,
  0x05c0905c0805c0705c0605c0505c0405c0305c0205c0105c0005bff05bfe05bfd05bfc05bfb05bfa05bf905bf805bf705bf605bf505bf405bf305bf2,
  0x05c2105c2005c1f05c1e05c1d05c1c05c1b05c1a05c1905c1805c1705c1605c1505c1405c1305c1205c1105c1005c0f05c0e05c0d05c0c05c0b05c0a,
  0x05c3905c3805c3705c3605c3505c3405c3305c3205c3105c3005c2f05c2e05c2d05c2c05c2b05c2a05c2905c2805c2705c2605c2505c2405c2305c22,
  0x05c5105c5005c4f05c4e05c4d05c4c05c4b05c4a05c4905c4805c4705c4605c4505c4405c4305c4205c4105c4005c3f05c3e05c3d05c3c05c3b05c3a,
  0x05c6905c6805c6705c6605c6505c6405c6305c6205c6105c6005c5f05c5e05c5d05c5c05c5b05c5a05c5905c5805c5705c5605c5505c5405c5305c52,
  0x05c8105c8005c7f05c7e05c7d05c7c05c7b05c7a05c7905c7805c7705c7605c7505c7405c7305c7205c7105c7005c6f05c6e05c6d05c6c05c6b05c6a,
  0x05c9905c9805c9705c9605c9505c9405c9305c9205c9105c9005c8f05c8e05c8d05c8c05c8b05c8a05c8905c8805c8705c8605c8505c8405c8305c82,
  0x05cb105cb005caf05cae05cad05cac05cab05caa05ca905ca805ca705ca605ca505ca405ca305ca205ca105ca005c9f05c9e05c9d05c9c05c9b05c9a,
  0x05cc905cc805cc705cc605cc505cc405cc305cc205cc105cc005cbf05cbe05cbd05cbc05cbb05cba05cb905cb805cb705cb605cb505cb405cb305cb2,
  0x05ce105ce005cdf05cde05cdd05cdc05cdb05cda05cd905cd805cd705cd605cd505cd405cd305cd205cd105cd005ccf05cce05ccd05ccc05ccb05cca,
  0x05cf905cf805cf705cf605cf505cf405cf305cf205cf105cf005cef05cee05ced05cec05ceb05cea05ce905ce805ce705ce605ce505ce405ce305ce2,
  0x05d1105d1005d0f05d0e05d0d05d0c05d0b05d0a05d0905d0805d0705d0605d0505d0405d0305d0205d0105d0005cff05cfe05cfd05cfc05cfb05cfa,
  0x05d2905d2805d2705d2605d2505d2405d2305d2205d2105d2005d1f05d1e05d1d05d1c05d1b05d1a05d1905d1805d1705d1605d1505d1405d1305d12,
  0x05d4105d4005d3f05d3e05d3d05d3c05d3b05d3a05d3905d3805d3705d3605d3505d3405d3305d3205d3105d3005d2f05d2e05d2d05d2c05d2b05d2a,
  0x05d5905d5805d5705d5605d5505d5405d5305d5205d5105d5005d4f05d4e05d4d05d4c05d4b05d4a05d4905d4805d4705d4605d4505d4405d4305d42,
  0x05d7105d7005d6f05d6e05d6d05d6c05d6b05d6a05d6905d6805d6705d6605d6505d6405d6305d6205d6105d6005d5f05d5e05d5d05d5c05d5b05d5a,
  0x05d8905d8805d8705d8605d8505d8405d8305d8205d8105d8005d7f05d7e05d7d05d7c05d7b05d7a05d7905d7805d7705d7605d7505d7405d7305d72,
  0x05da105da005d9f05d9e05d9d05d9c05d9b05d9a05d9905d9805d9705d9605d9505d9405d9305d9205d9105d9005d8f05d8e05d8d05d8c05d8b05d8a,
  0x05db905db805db705db605db505db405db305db205db105db005daf05dae05dad05dac05dab05daa05da905da805da705da605da505da405da305da2,
  0x05dd105dd005dcf05dce05dcd05dcc05dcb05dca05dc905dc805dc705dc605dc505dc405dc305dc205dc105dc005dbf05dbe05dbd05dbc05dbb05dba,
  0x05de905de805de705de605de505de405de305de205de105de005ddf05dde05ddd05ddc05ddb05dda05dd905dd805dd705dd605dd505dd405dd305dd2,
  0x05e0105e0005dff05dfe05dfd05dfc05dfb05dfa05df905df805df705df605df505df405df305df205df105df005def05dee05ded05dec05deb05dea,
  0x05e1905e1805e1705e1605e1505e1405e1305e1205e1105e1005e0f05e0e05e0d05e0c05e0b05e0a05e0905e0805e0705e0605e0505e0405e0305e02,
  0x05e3105e3005e2f05e2e05e2d05e2c05e2b05e2a05e2905e2805e2705e2605e2505e2405e2305e2205e2105e2005e1f05e1e05e1d05e1c05e1b05e1a,
  0x05e4905e4805e4705e4605e4505e4405e4305e4205e4105e4005e3f05e3e05e3d05e3c05e3b05e3a05e3905e3805e3705e3605e3505e3405e3305e32,
  0x05e6105e6005e5f05e5e05e5d05e5c05e5b05e5a05e5905e5805e5705e5605e5505e5405e5305e5205e5105e5005e4f05e4e05e4d05e4c05e4b05e4a,
  0x05e7905e7805e7705e7605e7505e7405e7305e7205e7105e7005e6f05e6e05e6d05e6c05e6b05e6a05e6905e6805e6705e6605e6505e6405e6305e62,
  0x05e9105e9005e8f05e8e05e8d05e8c05e8b05e8a05e8905e8805e8705e8605e8505e8405e8305e8205e8105e8005e7f05e7e05e7d05e7c05e7b05e7a,
  0x05ea905ea805ea705ea605ea505ea405ea305ea205ea105ea005e9f05e9e05e9d05e9c05e9b05e9a05e9905e9805e9705e9605e9505e9405e9305e92,
  0x05ec105ec005ebf05ebe05ebd05ebc05ebb05eba05eb905eb805eb705eb605eb505eb405eb305eb205eb105eb005eaf05eae05ead05eac05eab05eaa,
  0x05ed905ed805ed705ed605ed505ed405ed305ed205ed105ed005ecf05ece05ecd05ecc05ecb05eca05ec905ec805ec705ec605ec505ec405ec305ec2,
  0x05ef105ef005eef05eee05eed05eec05eeb05eea05ee905ee805ee705ee605ee505ee405ee305ee205ee105ee005edf05ede05edd05edc05edb05eda,
  0x05f0905f0805f0705f0605f0505f0405f0305f0205f0105f0005eff05efe05efd05efc05efb05efa05ef905ef805ef705ef605ef505ef405ef305ef2,
  0x05f2105f2005f1f05f1e05f1d05f1c05f1b05f1a05f1905f1805f1705f1605f1505f1405f1305f1205f1105f1005f0f05f0e05f0d05f0c05f0b05f0a,
  0x05f3905f3805f3705f3605f3505f3405f3305f3205f3105f3005f2f05f2e05f2d05f2c05f2b05f2a05f2905f2805f2705f2605f2505f2405f2305f22,
  0x05f5105f5005f4f05f4e05f4d05f4c05f4b05f4a05f4905f4805f4705f4605f4505f4405f4305f4205f4105f4005f3f05f3e05f3d05f3c05f3b05f3a,
  0x05f6905f6805f6705f6605f6505f6405f6305f6205f6105f6005f5f05f5e05f5d05f5c05f5b05f5a05f5905f5805f5705f5605f5505f5405f5305f52,
  0x05f8105f8005f7f05f7e05f7d05f7c05f7b05f7a05f7905f7805f7705f7605f7505f7405f7305f7205f7105f7005f6f05f6e05f6d05f6c05f6b05f6a,
  0x05f9905f9805f9705f9605f9505f9405f9305f9205f9105f9005f8f05f8e05f8d05f8c05f8b05f8a05f8905f8805f8705f8605f8505f8405f8305f82,
  0x05fb105fb005faf05fae05fad05fac05fab05faa05fa905fa805fa705fa605fa505fa405fa305fa205fa105fa005f9f05f9e05f9d05f9c05f9b05f9a,
  0x05fc905fc805fc705fc605fc505fc405fc305fc205fc105fc005fbf05fbe05fbd05fbc05fbb05fba05fb905fb805fb705fb605fb505fb405fb305fb2,
  0x05fe105fe005fdf05fde05fdd05fdc05fdb05fda05fd905fd805fd705fd605fd505fd405fd305fd205fd105fd005fcf05fce05fcd05fcc05fcb05fca,
  0x05ff905ff805ff705ff605ff505ff405ff305ff205ff105ff005fef05fee05fed05fec05feb05fea05fe905fe805fe705fe605fe505fe405fe305fe2,
  0x06011060100600f0600e0600d0600c0600b0600a0600906008060070600606005060040600306002060010600005fff05ffe05ffd05ffc05ffb05ffa,
  0x060290602806027060260602506024060230602206021060200601f0601e0601d0601c0601b0601a0601906018060170601606015060140601306012,
  0x06041060400603f0603e0603d0603c0603b0603a060390603806037060360603506034060330603206031060300602f0602e0602d0602c0602b0602a,
  0x060590605806057060560605506054060530605206051060500604f0604e0604d0604c0604b0604a0604906048060470604606045060440604306042,
  0x06071060700606f0606e0606d0606c0606b0606a060690606806067060660606506064060630606206061060600605f0605e0605d0605c0605b0605a,
  0x060890608806087060860608506084060830608206081060800607f0607e0607d0607c0607b0607a0607906078060770607606075060740607306072,
  0x060a1060a00609f0609e0609d0609c0609b0609a060990609806097060960609506094060930609206091060900608f0608e0608d0608c0608b0608a,
  0x060b9060b8060b7060b6060b5060b4060b3060b2060b1060b0060af060ae060ad060ac060ab060aa060a9060a8060a7060a6060a5060a4060a3060a2,
  0x060d1060d0060cf060ce060cd060cc060cb060ca060c9060c8060c7060c6060c5060c4060c3060c2060c1060c0060bf060be060bd060bc060bb060ba,
  0x060e9060e8060e7060e6060e5060e4060e3060e2060e1060e0060df060de060dd060dc060db060da060d9060d8060d7060d6060d5060d4060d3060d2,
  0x0610106100060ff060fe060fd060fc060fb060fa060f9060f8060f7060f6060f5060f4060f3060f2060f1060f0060ef060ee060ed060ec060eb060ea,
  0x061190611806117061160611506114061130611206111061100610f0610e0610d0610c0610b0610a0610906108061070610606105061040610306102,
  0x06131061300612f0612e0612d0612c0612b0612a061290612806127061260612506124061230612206121061200611f0611e0611d0611c0611b0611a,
  0x061490614806147061460614506144061430614206141061400613f0613e0613d0613c0613b0613a0613906138061370613606135061340613306132,
  0x06161061600615f0615e0615d0615c0615b0615a061590615806157061560615506154061530615206151061500614f0614e0614d0614c0614b0614a,
  0x061790617806177061760617506174061730617206171061700616f0616e0616d0616c0616b0616a0616906168061670616606165061640616306162,
  0x06191061900618f0618e0618d0618c0618b0618a061890618806187061860618506184061830618206181061800617f0617e0617d0617c0617b0617a,
  0x061a9061a8061a7061a6061a5061a4061a3061a2061a1061a00619f0619e0619d0619c0619b0619a0619906198061970619606195061940619306192,
  0x061c1061c0061bf061be061bd061bc061bb061ba061b9061b8061b7061b6061b5061b4061b3061b2061b1061b0061af061ae061ad061ac061ab061aa,
  0x061d9061d8061d7061d6061d5061d4061d3061d2061d1061d0061cf061ce061cd061cc061cb061ca061c9061c8061c7061c6061c5061c4061c3061c2,
  0x061f1061f0061ef061ee061ed061ec061eb061ea061e9061e8061e7061e6061e5061e4061e3061e2061e1061e0061df061de061dd061dc061db061da,
  0x06209062080620706206062050620406203062020620106200061ff061fe061fd061fc061fb061fa061f9061f8061f7061f6061f5061f4061f3061f2,
  0x06221062200621f0621e0621d0621c0621b0621a062190621806217062160621506214062130621206211062100620f0620e0620d0620c0620b0620a,
  0x062390623806237062360623506234062330623206231062300622f0622e0622d0622c0622b0622a0622906228062270622606225062240622306222,
  0x06251062500624f0624e0624d0624c0624b0624a062490624806247062460624506244062430624206241062400623f0623e0623d0623c0623b0623a,
  0x062690626806267062660626506264062630626206261062600625f0625e0625d0625c0625b0625a0625906258062570625606255062540625306252,
  0x06281062800627f0627e0627d0627c0627b0627a062790627806277062760627506274062730627206271062700626f0626e0626d0626c0626b0626a,
  0x062990629806297062960629506294062930629206291062900628f0628e0628d0628c0628b0628a0628906288062870628606285062840628306282,
  0x062b1062b0062af062ae062ad062ac062ab062aa062a9062a8062a7062a6062a5062a4062a3062a2062a1062a00629f0629e0629d0629c0629b0629a,
  0x062c9062c8062c7062c6062c5062c4062c3062c2062c1062c0062bf062be062bd062bc062bb062ba062b9062b8062b7062b6062b5062b4062b3062b2,
  0x062e1062e0062df062de062dd062dc062db062da062d9062d8062d7062d6062d5062d4062d3062d2062d1062d0062cf062ce062cd062cc062cb062ca,
  0x062f9062f8062f7062f6062f5062f4062f3062f2062f1062f0062ef062ee062ed062ec062eb062ea062e9062e8062e7062e6062e5062e4062e3062e2,
  0x06311063100630f0630e0630d0630c0630b0630a06309063080630706306063050630406303063020630106300062ff062fe062fd062fc062fb062fa,
  0x063290632806327063260632506324063230632206321063200631f0631e0631d0631c0631b0631a0631906318063170631606315063140631306312,
  0x06341063400633f0633e0633d0633c0633b0633a063390633806337063360633506334063330633206331063300632f0632e0632d0632c0632b0632a,
  0x063590635806357063560635506354063530635206351063500634f0634e0634d0634c0634b0634a0634906348063470634606345063440634306342,
  0x06371063700636f0636e0636d0636c0636b0636a063690636806367063660636506364063630636206361063600635f0635e0635d0635c0635b0635a,
  0x063890638806387063860638506384063830638206381063800637f0637e0637d0637c0637b0637a0637906378063770637606375063740637306372,
  0x063a1063a00639f0639e0639d0639c0639b0639a063990639806397063960639506394063930639206391063900638f0638e0638d0638c0638b0638a,
  0x063b9063b8063b7063b6063b5063b4063b3063b2063b1063b0063af063ae063ad063ac063ab063aa063a9063a8063a7063a6063a5063a4063a3063a2,
  0x063d1063d0063cf063ce063cd063cc063cb063ca063c9063c8063c7063c6063c5063c4063c3063c2063c1063c0063bf063be063bd063bc063bb063ba,
  0x063e9063e8063e7063e6063e5063e4063e3063e2063e1063e0063df063de063dd063dc063db063da063d9063d8063d7063d6063d5063d4063d3063d2,
  0x0640106400063ff063fe063fd063fc063fb063fa063f9063f8063f7063f6063f5063f4063f3063f2063f1063f0063ef063ee063ed063ec063eb063ea,
  0x064190641806417064160641506414064130641206411064100640f0640e0640d0640c0640b0640a0640906408064070640606405064040640306402,
  0x06431064300642f0642e0642d0642c0642b0642a064290642806427064260642506424064230642206421064200641f0641e0641d0641c0641b0641a,
  0x064490644806447064460644506444064430644206441064400643f0643e0643d0643c0643b0643a0643906438064370643606435064340643306432,
  0x06461064600645f0645e0645d0645c0645b0645a064590645806457064560645506454064530645206451064500644f0644e0644d0644c0644b0644a,
  0x064790647806477064760647506474064730647206471064700646f0646e0646d0646c0646b0646a0646906468064670646606465064640646306462,
  0x06491064900648f0648e0648d0648c0648b0648a064890648806487064860648506484064830648206481064800647f0647e0647d0647c0647b0647a,
  0x064a9064a8064a7064a6064a5064a4064a3064a2064a1064a00649f0649e0649d0649c0649b0649a0649906498064970649606495064940649306492,
  0x064c1064c0064bf064be064bd064bc064bb064ba064b9064b8064b7064b6064b5064b4064b3064b2064b1064b0064af064ae064ad064ac064ab064aa,
  0x064d9064d8064d7064d6064d5064d4064d3064d2064d1064d0064cf064ce064cd064cc064cb064ca064c9064c8064c7064c6064c5064c4064c3064c2,
  0x064f1064f0064ef064ee064ed064ec064eb064ea064e9064e8064e7064e6064e5064e4064e3064e2064e1064e0064df064de064dd064dc064db064da,
  0x06509065080650706506065050650406503065020650106500064ff064fe064fd064fc064fb064fa064f9064f8064f7064f6064f5064f4064f3064f2,
  0x06521065200651f0651e0651d0651c0651b0651a065190651806517065160651506514065130651206511065100650f0650e0650d0650c0650b0650a,
  0x065390653806537065360653506534065330653206531065300652f0652e0652d0652c0652b0652a0652906528065270652606525065240652306522,
  0x06551065500654f0654e0654d0654c0654b0654a065490654806547065460654506544065430654206541065400653f0653e0653d0653c0653b0653a,
  0x065690656806567065660656506564065630656206561065600655f0655e0655d0655c0655b0655a0655906558065570655606555065540655306552,
  0x06581065800657f0657e0657d0657c0657b0657a065790657806577065760657506574065730657206571065700656f0656e0656d0656c0656b0656a,
  0x065990659806597065960659506594065930659206591065900658f0658e0658d0658c0658b0658a0658906588065870658606585065840658306582,
  0x065b1065b0065af065ae065ad065ac065ab065aa065a9065a8065a7065a6065a5065a4065a3065a2065a1065a00659f0659e0659d0659c0659b0659a,
  0x065c9065c8065c7065c6065c5065c4065c3065c2065c1065c0065bf065be065bd065bc065bb065ba065b9065b8065b7065b6065b5065b4065b3065b2,
  0x065e1065e0065df065de065dd065dc065db065da065d9065d8065d7065d6065d5065d4065d3065d2065d1065d0065cf065ce065cd065cc065cb065ca,
  0x065f9065f8065f7065f6065f5065f4065f3065f2065f1065f0065ef065ee065ed065ec065eb065ea065e9065e8065e7065e6065e5065e4065e3065e2,
  0x06611066100660f0660e0660d0660c0660b0660a06609066080660706606066050660406603066020660106600065ff065fe065fd065fc065fb065fa,
  0x066290662806627066260662506624066230662206621066200661f0661e0661d0661c0661b0661a0661906618066170661606615066140661306612,
  0x06641066400663f0663e0663d0663c0663b0663a066390663806637066360663506634066330663206631066300662f0662e0662d0662c0662b0662a,
  0x066590665806657066560665506654066530665206651066500664f0664e0664d0664c0664b0664a0664906648066470664606645066440664306642,
  0x06671066700666f0666e0666d0666c0666b0666a066690666806667066660666506664066630666206661066600665f0665e0665d0665c0665b0665a,
  0x066890668806687066860668506684066830668206681066800667f0667e0667d0667c0667b0667a0667906678066770667606675066740667306672,
  0x066a1066a00669f0669e0669d0669c0669b0669a066990669806697066960669506694066930669206691066900668f0668e0668d0668c0668b0668a,
  0x066b9066b8066b7066b6066b5066b4066b3066b2066b1066b0066af066ae066ad066ac066ab066aa066a9066a8066a7066a6066a5066a4066a3066a2,
  0x066d1066d0066cf066ce066cd066cc066cb066ca066c9066c8066c7066c6066c5066c4066c3066c2066c1066c0066bf066be066bd066bc066bb066ba,
  0x066e9066e8066e7066e6066e5066e4066e3066e2066e1066e0066df066de066dd066dc066db066da066d9066d8066d7066d6066d5066d4066d3066d2,
  0x0670106700066ff066fe066fd066fc066fb066fa066f9066f8066f7066f6066f5066f4066f3066f2066f1066f0066ef066ee066ed066ec066eb066ea,
  0x067190671806717067160671506714067130671206711067100670f0670e0670d0670c0670b0670a0670906708067070670606705067040670306702,
  0x06731067300672f0672e0672d0672c0672b0672a067290672806727067260672506724067230672206721067200671f0671e0671d0671c0671b0671a,
  0x067490674806747067460674506744067430674206741067400673f0673e0673d0673c0673b0673a0673906738067370673606735067340673306732,
  0x06761067600675f0675e0675d0675c0675b0675a067590675806757067560675506754067530675206751067500674f0674e0674d0674c0674b0674a,
  0x067790677806777067760677506774067730677206771067700676f0676e0676d0676c0676b0676a0676906768067670676606765067640676306762,
  0x06791067900678f0678e0678d0678c0678b0678a067890678806787067860678506784067830678206781067800677f0677e0677d0677c0677b0677a,
  0x067a9067a8067a7067a6067a5067a4067a3067a2067a1067a00679f0679e0679d0679c0679b0679a0679906798067970679606795067940679306792,
  0x067c1067c0067bf067be067bd067bc067bb067ba067b9067b8067b7067b6067b5067b4067b3067b2067b1067b0067af067ae067ad067ac067ab067aa,
  0x067d9067d8067d7067d6067d5067d4067d3067d2067d1067d0067cf067ce067cd067cc067cb067ca067c9067c8067c7067c6067c5067c4067c3067c2,
  0x067f1067f0067ef067ee067ed067ec067eb067ea067e9067e8067e7067e6067e5067e4067e3067e2067e1067e0067df067de067dd067dc067db067da,
  0x06809068080680706806068050680406803068020680106800067ff067fe067fd067fc067fb067fa067f9067f8067f7067f6067f5067f4067f3067f2,
  0x06821068200681f0681e0681d0681c0681b0681a068190681806817068160681506814068130681206811068100680f0680e0680d0680c0680b0680a,
  0x068390683806837068360683506834068330683206831068300682f0682e0682d0682c0682b0682a0682906828068270682606825068240682306822,
  0x06851068500684f0684e0684d0684c0684b0684a068490684806847068460684506844068430684206841068400683f0683e0683d0683c0683b0683a,
  0x068690686806867068660686506864068630686206861068600685f0685e0685d0685c0685b0685a0685906858068570685606855068540685306852,
  0x06881068800687f0687e0687d0687c0687b0687a068790687806877068760687506874068730687206871068700686f0686e0686d0686c0686b0686a,
  0x068990689806897068960689506894068930689206891068900688f0688e0688d0688c0688b0688a0688906888068870688606885068840688306882,
  0x068b1068b0068af068ae068ad068ac068ab068aa068a9068a8068a7068a6068a5068a4068a3068a2068a1068a00689f0689e0689d0689c0689b0689a,
  0x068c9068c8068c7068c6068c5068c4068c3068c2068c1068c0068bf068be068bd068bc068bb068ba068b9068b8068b7068b6068b5068b4068b3068b2,
  0x068e1068e0068df068de068dd068dc068db068da068d9068d8068d7068d6068d5068d4068d3068d2068d1068d0068cf068ce068cd068cc068cb068ca,
  0x068f9068f8068f7068f6068f5068f4068f3068f2068f1068f0068ef068ee068ed068ec068eb068ea068e9068e8068e7068e6068e5068e4068e3068e2,
  0x06911069100690f0690e0690d0690c0690b0690a06909069080690706906069050690406903069020690106900068ff068fe068fd068fc068fb068fa,
  0x069290692806927069260692506924069230692206921069200691f0691e0691d0691c0691b0691a0691906918069170691606915069140691306912,
  0x06941069400693f0693e0693d0693c0693b0693a069390693806937069360693506934069330693206931069300692f0692e0692d0692c0692b0692a,
  0x069590695806957069560695506954069530695206951069500694f0694e0694d0694c0694b0694a0694906948069470694606945069440694306942,
  0x06971069700696f0696e0696d0696c0696b0696a069690696806967069660696506964069630696206961069600695f0695e0695d0695c0695b0695a,
  0x069890698806987069860698506984069830698206981069800697f0697e0697d0697c0697b0697a0697906978069770697606975069740697306972,
  0x069a1069a00699f0699e0699d0699c0699b0699a069990699806997069960699506994069930699206991069900698f0698e0698d0698c0698b0698a,
  0x069b9069b8069b7069b6069b5069b4069b3069b2069b1069b0069af069ae069ad069ac069ab069aa069a9069a8069a7069a6069a5069a4069a3069a2,
  0x069d1069d0069cf069ce069cd069cc069cb069ca069c9069c8069c7069c6069c5069c4069c3069c2069c1069c0069bf069be069bd069bc069bb069ba,
  0x069e9069e8069e7069e6069e5069e4069e3069e2069e1069e0069df069de069dd069dc069db069da069d9069d8069d7069d6069d5069d4069d3069d2,
  0x06a0106a00069ff069fe069fd069fc069fb069fa069f9069f8069f7069f6069f5069f4069f3069f2069f1069f0069ef069ee069ed069ec069eb069ea,
  0x06a1906a1806a1706a1606a1506a1406a1306a1206a1106a1006a0f06a0e06a0d06a0c06a0b06a0a06a0906a0806a0706a0606a0506a0406a0306a02,
  0x06a3106a3006a2f06a2e06a2d06a2c06a2b06a2a06a2906a2806a2706a2606a2506a2406a2306a2206a2106a2006a1f06a1e06a1d06a1c06a1b06a1a,
  0x06a4906a4806a4706a4606a4506a4406a4306a4206a4106a4006a3f06a3e06a3d06a3c06a3b06a3a06a3906a3806a3706a3606a3506a3406a3306a32,
  0x06a6106a6006a5f06a5e06a5d06a5c06a5b06a5a06a5906a5806a5706a5606a5506a5406a5306a5206a5106a5006a4f06a4e06a4d06a4c06a4b06a4a,
  0x06a7906a7806a7706a7606a7506a7406a7306a7206a7106a7006a6f06a6e06a6d06a6c06a6b06a6a06a6906a6806a6706a6606a6506a6406a6306a62,
  0x06a9106a9006a8f06a8e06a8d06a8c06a8b06a8a06a8906a8806a8706a8606a8506a8406a8306a8206a8106a8006a7f06a7e06a7d06a7c06a7b06a7a,
  0x06aa906aa806aa706aa606aa506aa406aa306aa206aa106aa006a9f06a9e06a9d06a9c06a9b06a9a06a9906a9806a9706a9606a9506a9406a9306a92,
  0x06ac106ac006abf06abe06abd06abc06abb06aba06ab906ab806ab706ab606ab506ab406ab306ab206ab106ab006aaf06aae06aad06aac06aab06aaa,
  0x06ad906ad806ad706ad606ad506ad406ad306ad206ad106ad006acf06ace06acd06acc06acb06aca06ac906ac806ac706ac606ac506ac406ac306ac2,
  0x06af106af006aef06aee06aed06aec06aeb06aea06ae906ae806ae706ae606ae506ae406ae306ae206ae106ae006adf06ade06add06adc06adb06ada,
  0x06b0906b0806b0706b0606b0506b0406b0306b0206b0106b0006aff06afe06afd06afc06afb06afa06af906af806af706af606af506af406af306af2,
  0x06b2106b2006b1f06b1e06b1d06b1c06b1b06b1a06b1906b1806b1706b1606b1506b1406b1306b1206b1106b1006b0f06b0e06b0d06b0c06b0b06b0a,
  0x06b3906b3806b3706b3606b3506b3406b3306b3206b3106b3006b2f06b2e06b2d06b2c06b2b06b2a06b2906b2806b2706b2606b2506b2406b2306b22,
  0x06b5106b5006b4f06b4e06b4d06b4c06b4b06b4a06b4906b4806b4706b4606b4506b4406b4306b4206b4106b4006b3f06b3e06b3d06b3c06b3b06b3a,
  0x06b6906b6806b6706b6606b6506b6406b6306b6206b6106b6006b5f06b5e06b5d06b5c06b5b06b5a06b5906b5806b5706b5606b5506b5406b5306b52,
  0x06b8106b8006b7f06b7e06b7d06b7c06b7b06b7a06b7906b7806b7706b7606b7506b7406b7306b7206b7106b7006b6f06b6e06b6d06b6c06b6b06b6a,
  0x06b9906b9806b9706b9606b9506b9406b9306b9206b9106b9006b8f06b8e06b8d06b8c06b8b06b8a06b8906b8806b8706b8606b8506b8406b8306b82,
  0x06bb106bb006baf06bae06bad06bac06bab06baa06ba906ba806ba706ba606ba506ba406ba306ba206ba106ba006b9f06b9e06b9d06b9c06b9b06b9a,
  0x06bc906bc806bc706bc606bc506bc406bc306bc206bc106bc006bbf06bbe06bbd06bbc06bbb06bba06bb906bb806bb706bb606bb506bb406bb306bb2,
  0x06be106be006bdf06bde06bdd06bdc06bdb06bda06bd906bd806bd706bd606bd506bd406bd306bd206bd106bd006bcf06bce06bcd06bcc06bcb06bca,
  0x06bf906bf806bf706bf606bf506bf406bf306bf206bf106bf006bef06bee06bed06bec06beb06bea06be906be806be706be606be506be406be306be2,
  0x06c1106c1006c0f06c0e06c0d06c0c06c0b06c0a06c0906c0806c0706c0606c0506c0406c0306c0206c0106c0006bff06bfe06bfd06bfc06bfb06bfa,
  0x06c2906c2806c2706c2606c2506c2406c2306c2206c2106c2006c1f06c1e06c1d06c1c06c1b06c1a06c1906c1806c1706c1606c1506c1406c1306c12,
  0x06c4106c4006c3f06c3e06c3d06c3c06c3b06c3a06c3906c3806c3706c3606c3506c3406c3306c3206c3106c3006c2f06c2e06c2d06c2c06c2b06c2a,
  0x06c5906c5806c5706c5606c5506c5406c5306c5206c5106c5006c4f06c4e06c4d06c4c06c4b06c4a06c4906c4806c4706c4606c4506c4406c4306c42,
  0x06c7106c7006c6f06c6e06c6d06c6c06c6b06c6a06c6906c6806c6706c6606c6506c6406c6306c6206c6106c6006c5f06c5e06c5d06c5c06c5b06c5a,
  0x06c8906c8806c8706c8606c8506c8406c8306c8206c8106c8006c7f06c7e06c7d06c7c06c7b06c7a06c7906c7806c7706c7606c7506c7406c7306c72,
  0x06ca106ca006c9f06c9e06c9d06c9c06c9b06c9a06c9906c9806c9706c9606c9506c9406c9306c9206c9106c9006c8f06c8e06c8d06c8c06c8b06c8a,
  0x06cb906cb806cb706cb606cb506cb406cb306cb206cb106cb006caf06cae06cad06cac06cab06caa06ca906ca806ca706ca606ca506ca406ca306ca2,
  0x06cd106cd006ccf06cce06ccd06ccc06ccb06cca06cc906cc806cc706cc606cc506cc406cc306cc206cc106cc006cbf06cbe06cbd06cbc06cbb06cba,
  0x06ce906ce806ce706ce606ce506ce406ce306ce206ce106ce006cdf06cde06cdd06cdc06cdb06cda06cd906cd806cd706cd606cd506cd406cd306cd2,
  0x06d0106d0006cff06cfe06cfd06cfc06cfb06cfa06cf906cf806cf706cf606cf506cf406cf306cf206cf106cf006cef06cee06ced06cec06ceb06cea,
  0x06d1906d1806d1706d1606d1506d1406d1306d1206d1106d1006d0f06d0e06d0d06d0c06d0b06d0a06d0906d0806d0706d0606d0506d0406d0306d02,
  0x06d3106d3006d2f06d2e06d2d06d2c06d2b06d2a06d2906d2806d2706d2606d2506d2406d2306d2206d2106d2006d1f06d1e06d1d06d1c06d1b06d1a,
  0x06d4906d4806d4706d4606d4506d4406d4306d4206d4106d4006d3f06d3e06d3d06d3c06d3b06d3a06d3906d3806d3706d3606d3506d3406d3306d32,
  0x06d6106d6006d5f06d5e06d5d06d5c06d5b06d5a06d5906d5806d5706d5606d5506d5406d5306d5206d5106d5006d4f06d4e06d4d06d4c06d4b06d4a,
  0x06d7906d7806d7706d7606d7506d7406d7306d7206d7106d7006d6f06d6e06d6d06d6c06d6b06d6a06d6906d6806d6706d6606d6506d6406d6306d62,
  0x06d9106d9006d8f06d8e06d8d06d8c06d8b06d8a06d8906d8806d8706d8606d8506d8406d8306d8206d8106d8006d7f06d7e06d7d06d7c06d7b06d7a,
  0x06da906da806da706da606da506da406da306da206da106da006d9f06d9e06d9d06d9c06d9b06d9a06d9906d9806d9706d9606d9506d9406d9306d92,
  0x06dc106dc006dbf06dbe06dbd06dbc06dbb06dba06db906db806db706db606db506db406db306db206db106db006daf06dae06dad06dac06dab06daa,
  0x06dd906dd806dd706dd606dd506dd406dd306dd206dd106dd006dcf06dce06dcd06dcc06dcb06dca06dc906dc806dc706dc606dc506dc406dc306dc2,
  0x06df106df006def06dee06ded06dec06deb06dea06de906de806de706de606de506de406de306de206de106de006ddf06dde06ddd06ddc06ddb06dda,
  0x06e0906e0806e0706e0606e0506e0406e0306e0206e0106e0006dff06dfe06dfd06dfc06dfb06dfa06df906df806df706df606df506df406df306df2,
  0x06e2106e2006e1f06e1e06e1d06e1c06e1b06e1a06e1906e1806e1706e1606e1506e1406e1306e1206e1106e1006e0f06e0e06e0d06e0c06e0b06e0a,
  0x06e3906e3806e3706e3606e3506e3406e3306e3206e3106e3006e2f06e2e06e2d06e2c06e2b06e2a06e2906e2806e2706e2606e2506e2406e2306e22,
  0x06e5106e5006e4f06e4e06e4d06e4c06e4b06e4a06e4906e4806e4706e4606e4506e4406e4306e4206e4106e4006e3f06e3e06e3d06e3c06e3b06e3a,
  0x06e6906e6806e6706e6606e6506e6406e6306e6206e6106e6006e5f06e5e06e5d06e5c06e5b06e5a06e5906e5806e5706e5606e5506e5406e5306e52,
  0x06e8106e8006e7f06e7e06e7d06e7c06e7b06e7a06e7906e7806e7706e7606e7506e7406e7306e7206e7106e7006e6f06e6e06e6d06e6c06e6b06e6a,
  0x06e9906e9806e9706e9606e9506e9406e9306e9206e9106e9006e8f06e8e06e8d06e8c06e8b06e8a06e8906e8806e8706e8606e8506e8406e8306e82,
  0x06eb106eb006eaf06eae06ead06eac06eab06eaa06ea906ea806ea706ea606ea506ea406ea306ea206ea106ea006e9f06e9e06e9d06e9c06e9b06e9a,
  0x06ec906ec806ec706ec606ec506ec406ec306ec206ec106ec006ebf06ebe06ebd06ebc06ebb06eba06eb906eb806eb706eb606eb506eb406eb306eb2,
  0x06ee106ee006edf06ede06edd06edc06edb06eda06ed906ed806ed706ed606ed506ed406ed306ed206ed106ed006ecf06ece06ecd06ecc06ecb06eca,
  0x06ef906ef806ef706ef606ef506ef406ef306ef206ef106ef006eef06eee06eed06eec06eeb06eea06ee906ee806ee706ee606ee506ee406ee306ee2,
  0x06f1106f1006f0f06f0e06f0d06f0c06f0b06f0a06f0906f0806f0706f0606f0506f0406f0306f0206f0106f0006eff06efe06efd06efc06efb06efa,
  0x06f2906f2806f2706f2606f2506f2406f2306f2206f2106f2006f1f06f1e06f1d06f1c06f1b06f1a06f1906f1806f1706f1606f1506f1406f1306f12,
  0x06f4106f4006f3f06f3e06f3d06f3c06f3b06f3a06f3906f3806f3706f3606f3506f3406f3306f3206f3106f3006f2f06f2e06f2d06f2c06f2b06f2a,
  0x06f5906f5806f5706f5606f5506f5406f5306f5206f5106f5006f4f06f4e06f4d06f4c06f4b06f4a06f4906f4806f4706f4606f4506f4406f4306f42,
  0x06f7106f7006f6f06f6e06f6d06f6c06f6b06f6a06f6906f6806f6706f6606f6506f6406f6306f6206f6106f6006f5f06f5e06f5d06f5c06f5b06f5a,
  0x06f8906f8806f8706f8606f8506f8406f8306f8206f8106f8006f7f06f7e06f7d06f7c06f7b06f7a06f7906f7806f7706f7606f7506f7406f7306f72,
  0x06fa106fa006f9f06f9e06f9d06f9c06f9b06f9a06f9906f9806f9706f9606f9506f9406f9306f9206f9106f9006f8f06f8e06f8d06f8c06f8b06f8a,
  0x06fb906fb806fb706fb606fb506fb406fb306fb206fb106fb006faf06fae06fad06fac06fab06faa06fa906fa806fa706fa606fa506fa406fa306fa2,
  0x06fd106fd006fcf06fce06fcd06fcc06fcb06fca06fc906fc806fc706fc606fc506fc406fc306fc206fc106fc006fbf06fbe06fbd06fbc06fbb06fba,
  0x06fe906fe806fe706fe606fe506fe406fe306fe206fe106fe006fdf06fde06fdd06fdc06fdb06fda06fd906fd806fd706fd606fd506fd406fd306fd2,
  0x070010700006fff06ffe06ffd06ffc06ffb06ffa06ff906ff806ff706ff606ff506ff406ff306ff206ff106ff006fef06fee06fed06fec06feb06fea,
  0x070190701807017070160701507014070130701207011070100700f0700e0700d0700c0700b0700a0700907008070070700607005070040700307002,
  0x07031070300702f0702e0702d0702c0702b0702a070290702807027070260702507024070230702207021070200701f0701e0701d0701c0701b0701a,
  0x070490704807047070460704507044070430704207041070400703f0703e0703d0703c0703b0703a0703907038070370703607035070340703307032,
  0x07061070600705f0705e0705d0705c0705b0705a070590705807057070560705507054070530705207051070500704f0704e0704d0704c0704b0704a,
  0x070790707807077070760707507074070730707207071070700706f0706e0706d0706c0706b0706a0706907068070670706607065070640706307062,
  0x07091070900708f0708e0708d0708c0708b0708a070890708807087070860708507084070830708207081070800707f0707e0707d0707c0707b0707a,
  0x070a9070a8070a7070a6070a5070a4070a3070a2070a1070a00709f0709e0709d0709c0709b0709a0709907098070970709607095070940709307092,
  0x070c1070c0070bf070be070bd070bc070bb070ba070b9070b8070b7070b6070b5070b4070b3070b2070b1070b0070af070ae070ad070ac070ab070aa,
  0x070d9070d8070d7070d6070d5070d4070d3070d2070d1070d0070cf070ce070cd070cc070cb070ca070c9070c8070c7070c6070c5070c4070c3070c2,
  0x070f1070f0070ef070ee070ed070ec070eb070ea070e9070e8070e7070e6070e5070e4070e3070e2070e1070e0070df070de070dd070dc070db070da,
  0x07109071080710707106071050710407103071020710107100070ff070fe070fd070fc070fb070fa070f9070f8070f7070f6070f5070f4070f3070f2,
  0x07121071200711f0711e0711d0711c0711b0711a071190711807117071160711507114071130711207111071100710f0710e0710d0710c0710b0710a,
  0x071390713807137071360713507134071330713207131071300712f0712e0712d0712c0712b0712a0712907128071270712607125071240712307122,
  0x07151071500714f0714e0714d0714c0714b0714a071490714807147071460714507144071430714207141071400713f0713e0713d0713c0713b0713a,
  0x071690716807167071660716507164071630716207161071600715f0715e0715d0715c0715b0715a0715907158071570715607155071540715307152,
  0x07181071800717f0717e0717d0717c0717b0717a071790717807177071760717507174071730717207171071700716f0716e0716d0716c0716b0716a,
  0x071990719807197071960719507194071930719207191071900718f0718e0718d0718c0718b0718a0718907188071870718607185071840718307182,
  0x071b1071b0071af071ae071ad071ac071ab071aa071a9071a8071a7071a6071a5071a4071a3071a2071a1071a00719f0719e0719d0719c0719b0719a,
  0x071c9071c8071c7071c6071c5071c4071c3071c2071c1071c0071bf071be071bd071bc071bb071ba071b9071b8071b7071b6071b5071b4071b3071b2,
  0x071e1071e0071df071de071dd071dc071db071da071d9071d8071d7071d6071d5071d4071d3071d2071d1071d0071cf071ce071cd071cc071cb071ca,
  0x071f9071f8071f7071f6071f5071f4071f3071f2071f1071f0071ef071ee071ed071ec071eb071ea071e9071e8071e7071e6071e5071e4071e3071e2,
  0x07211072100720f0720e0720d0720c0720b0720a07209072080720707206072050720407203072020720107200071ff071fe071fd071fc071fb071fa,
  0x072290722807227072260722507224072230722207221072200721f0721e0721d0721c0721b0721a0721907218072170721607215072140721307212,
  0x07241072400723f0723e0723d0723c0723b0723a072390723807237072360723507234072330723207231072300722f0722e0722d0722c0722b0722a,
  0x072590725807257072560725507254072530725207251072500724f0724e0724d0724c0724b0724a0724907248072470724607245072440724307242,
  0x07271072700726f0726e0726d0726c0726b0726a072690726807267072660726507264072630726207261072600725f0725e0725d0725c0725b0725a,
  0x072890728807287072860728507284072830728207281072800727f0727e0727d0727c0727b0727a0727907278072770727607275072740727307272,
  0x072a1072a00729f0729e0729d0729c0729b0729a072990729807297072960729507294072930729207291072900728f0728e0728d0728c0728b0728a,
  0x072b9072b8072b7072b6072b5072b4072b3072b2072b1072b0072af072ae072ad072ac072ab072aa072a9072a8072a7072a6072a5072a4072a3072a2,
  0x072d1072d0072cf072ce072cd072cc072cb072ca072c9072c8072c7072c6072c5072c4072c3072c2072c1072c0072bf072be072bd072bc072bb072ba,
  0x072e9072e8072e7072e6072e5072e4072e3072e2072e1072e0072df072de072dd072dc072db072da072d9072d8072d7072d6072d5072d4072d3072d2,
  0x0730107300072ff072fe072fd072fc072fb072fa072f9072f8072f7072f6072f5072f4072f3072f2072f1072f0072ef072ee072ed072ec072eb072ea,
  0x073190731807317073160731507314073130731207311073100730f0730e0730d0730c0730b0730a0730907308073070730607305073040730307302,
  0x07331073300732f0732e0732d0732c0732b0732a073290732807327073260732507324073230732207321073200731f0731e0731d0731c0731b0731a,
  0x073490734807347073460734507344073430734207341073400733f0733e0733d0733c0733b0733a0733907338073370733607335073340733307332,
  0x07361073600735f0735e0735d0735c0735b0735a073590735807357073560735507354073530735207351073500734f0734e0734d0734c0734b0734a,
  0x073790737807377073760737507374073730737207371073700736f0736e0736d0736c0736b0736a0736907368073670736607365073640736307362,
  0x07391073900738f0738e0738d0738c0738b0738a073890738807387073860738507384073830738207381073800737f0737e0737d0737c0737b0737a,
  0x073a9073a8073a7073a6073a5073a4073a3073a2073a1073a00739f0739e0739d0739c0739b0739a0739907398073970739607395073940739307392,
  0x073c1073c0073bf073be073bd073bc073bb073ba073b9073b8073b7073b6073b5073b4073b3073b2073b1073b0073af073ae073ad073ac073ab073aa,
  0x073d9073d8073d7073d6073d5073d4073d3073d2073d1073d0073cf073ce073cd073cc073cb073ca073c9073c8073c7073c6073c5073c4073c3073c2,
  0x073f1073f0073ef073ee073ed073ec073eb073ea073e9073e8073e7073e6073e5073e4073e3073e2073e1073e0073df073de073dd073dc073db073da,
  0x07409074080740707406074050740407403074020740107400073ff073fe073fd073fc073fb073fa073f9073f8073f7073f6073f5073f4073f3073f2,
  0x07421074200741f0741e0741d0741c0741b0741a074190741807417074160741507414074130741207411074100740f0740e0740d0740c0740b0740a,
  0x074390743807437074360743507434074330743207431074300742f0742e0742d0742c0742b0742a0742907428074270742607425074240742307422,
  0x07451074500744f0744e0744d0744c0744b0744a074490744807447074460744507444074430744207441074400743f0743e0743d0743c0743b0743a,
  0x074690746807467074660746507464074630746207461074600745f0745e0745d0745c0745b0745a0745907458074570745607455074540745307452,
  0x07481074800747f0747e0747d0747c0747b0747a074790747807477074760747507474074730747207471074700746f0746e0746d0746c0746b0746a,
  0x074990749807497074960749507494074930749207491074900748f0748e0748d0748c0748b0748a0748907488074870748607485074840748307482,
  0x074b1074b0074af074ae074ad074ac074ab074aa074a9074a8074a7074a6074a5074a4074a3074a2074a1074a00749f0749e0749d0749c0749b0749a,
  0x074c9074c8074c7074c6074c5074c4074c3074c2074c1074c0074bf074be074bd074bc074bb074ba074b9074b8074b7074b6074b5074b4074b3074b2,
  0x074e1074e0074df074de074dd074dc074db074da074d9074d8074d7074d6074d5074d4074d3074d2074d1074d0074cf074ce074cd074cc074cb074ca,
  0x074f9074f8074f7074f6074f5074f4074f3074f2074f1074f0074ef074ee074ed074ec074eb074ea074e9074e8074e7074e6074e5074e4074e3074e2,
  0x07511075100750f0750e0750d0750c0750b0750a07509075080750707506075050750407503075020750107500074ff074fe074fd074fc074fb074fa,
  0x075290752807527075260752507524075230752207521075200751f0751e0751d0751c0751b0751a0751907518075170751607515075140751307512,
  0x07541075400753f0753e0753d0753c0753b0753a075390753807537075360753507534075330753207531075300752f0752e0752d0752c0752b0752a,
  0x075590755807557075560755507554075530755207551075500754f0754e0754d0754c0754b0754a0754907548075470754607545075440754307542,
  0x07571075700756f0756e0756d0756c0756b0756a075690756807567075660756507564075630756207561075600755f0755e0755d0755c0755b0755a,
  0x075890758807587075860758507584075830758207581075800757f0757e0757d0757c0757b0757a0757907578075770757607575075740757307572,
  0x075a1075a00759f0759e0759d0759c0759b0759a075990759807597075960759507594075930759207591075900758f0758e0758d0758c0758b0758a,
  0x075b9075b8075b7075b6075b5075b4075b3075b2075b1075b0075af075ae075ad075ac075ab075aa075a9075a8075a7075a6075a5075a4075a3075a2,
  0x075d1075d0075cf075ce075cd075cc075cb075ca075c9075c8075c7075c6075c5075c4075c3075c2075c1075c0075bf075be075bd075bc075bb075ba,
  0x075e9075e8075e7075e6075e5075e4075e3075e2075e1075e0075df075de075dd075dc075db075da075d9075d8075d7075d6075d5075d4075d3075d2,
  0x0760107600075ff075fe075fd075fc075fb075fa075f9075f8075f7075f6075f5075f4075f3075f2075f1075f0075ef075ee075ed075ec075eb075ea,
  0x076190761807617076160761507614076130761207611076100760f0760e0760d0760c0760b0760a0760907608076070760607605076040760307602,
  0x07631076300762f0762e0762d0762c0762b0762a076290762807627076260762507624076230762207621076200761f0761e0761d0761c0761b0761a,
  0x076490764807647076460764507644076430764207641076400763f0763e0763d0763c0763b0763a0763907638076370763607635076340763307632,
  0x07661076600765f0765e0765d0765c0765b0765a076590765807657076560765507654076530765207651076500764f0764e0764d0764c0764b0764a,
  0x076790767807677076760767507674076730767207671076700766f0766e0766d0766c0766b0766a0766907668076670766607665076640766307662,
  0x07691076900768f0768e0768d0768c0768b0768a076890768807687076860768507684076830768207681076800767f0767e0767d0767c0767b0767a,
  0x076a9076a8076a7076a6076a5076a4076a3076a2076a1076a00769f0769e0769d0769c0769b0769a0769907698076970769607695076940769307692,
  0x076c1076c0076bf076be076bd076bc076bb076ba076b9076b8076b7076b6076b5076b4076b3076b2076b1076b0076af076ae076ad076ac076ab076aa,
  0x076d9076d8076d7076d6076d5076d4076d3076d2076d1076d0076cf076ce076cd076cc076cb076ca076c9076c8076c7076c6076c5076c4076c3076c2,
  0x076f1076f0076ef076ee076ed076ec076eb076ea076e9076e8076e7076e6076e5076e4076e3076e2076e1076e0076df076de076dd076dc076db076da,
  0x07709077080770707706077050770407703077020770107700076ff076fe076fd076fc076fb076fa076f9076f8076f7076f6076f5076f4076f3076f2,
  0x07721077200771f0771e0771d0771c0771b0771a077190771807717077160771507714077130771207711077100770f0770e0770d0770c0770b0770a,
  0x077390773807737077360773507734077330773207731077300772f0772e0772d0772c0772b0772a0772907728077270772607725077240772307722,
  0x07751077500774f0774e0774d0774c0774b0774a077490774807747077460774507744077430774207741077400773f0773e0773d0773c0773b0773a,
  0x077690776807767077660776507764077630776207761077600775f0775e0775d0775c0775b0775a0775907758077570775607755077540775307752,
  0x07781077800777f0777e0777d0777c0777b0777a077790777807777077760777507774077730777207771077700776f0776e0776d0776c0776b0776a,
  0x077990779807797077960779507794077930779207791077900778f0778e0778d0778c0778b0778a0778907788077870778607785077840778307782,
  0x077b1077b0077af077ae077ad077ac077ab077aa077a9077a8077a7077a6077a5077a4077a3077a2077a1077a00779f0779e0779d0779c0779b0779a,
  0x077c9077c8077c7077c6077c5077c4077c3077c2077c1077c0077bf077be077bd077bc077bb077ba077b9077b8077b7077b6077b5077b4077b3077b2,
  0x077e1077e0077df077de077dd077dc077db077da077d9077d8077d7077d6077d5077d4077d3077d2077d1077d0077cf077ce077cd077cc077cb077ca,
  0x077f9077f8077f7077f6077f5077f4077f3077f2077f1077f0077ef077ee077ed077ec077eb077ea077e9077e8077e7077e6077e5077e4077e3077e2,
  0x07811078100780f0780e0780d0780c0780b0780a07809078080780707806078050780407803078020780107800077ff077fe077fd077fc077fb077fa,
  0x078290782807827078260782507824078230782207821078200781f0781e0781d0781c0781b0781a0781907818078170781607815078140781307812,
  0x07841078400783f0783e0783d0783c0783b0783a078390783807837078360783507834078330783207831078300782f0782e0782d0782c0782b0782a,
  0x078590785807857078560785507854078530785207851078500784f0784e0784d0784c0784b0784a0784907848078470784607845078440784307842,
  0x07871078700786f0786e0786d0786c0786b0786a078690786807867078660786507864078630786207861078600785f0785e0785d0785c0785b0785a,
  0x078890788807887078860788507884078830788207881078800787f0787e0787d0787c0787b0787a0787907878078770787607875078740787307872,
  0x078a1078a00789f0789e0789d0789c0789b0789a078990789807897078960789507894078930789207891078900788f0788e0788d0788c0788b0788a,
  0x078b9078b8078b7078b6078b5078b4078b3078b2078b1078b0078af078ae078ad078ac078ab078aa078a9078a8078a7078a6078a5078a4078a3078a2,
  0x078d1078d0078cf078ce078cd078cc078cb078ca078c9078c8078c7078c6078c5078c4078c3078c2078c1078c0078bf078be078bd078bc078bb078ba,
  0x078e9078e8078e7078e6078e5078e4078e3078e2078e1078e0078df078de078dd078dc078db078da078d9078d8078d7078d6078d5078d4078d3078d2,
  0x0790107900078ff078fe078fd078fc078fb078fa078f9078f8078f7078f6078f5078f4078f3078f2078f1078f0078ef078ee078ed078ec078eb078ea,
  0x079190791807917079160791507914079130791207911079100790f0790e0790d0790c0790b0790a0790907908079070790607905079040790307902,
  0x07931079300792f0792e0792d0792c0792b0792a079290792807927079260792507924079230792207921079200791f0791e0791d0791c0791b0791a,
  0x079490794807947079460794507944079430794207941079400793f0793e0793d0793c0793b0793a0793907938079370793607935079340793307932,
  0x07961079600795f0795e0795d0795c0795b0795a079590795807957079560795507954079530795207951079500794f0794e0794d0794c0794b0794a,
  0x079790797807977079760797507974079730797207971079700796f0796e0796d0796c0796b0796a0796907968079670796607965079640796307962,
  0x07991079900798f0798e0798d0798c0798b0798a079890798807987079860798507984079830798207981079800797f0797e0797d0797c0797b0797a,
  0x079a9079a8079a7079a6079a5079a4079a3079a2079a1079a00799f0799e0799d0799c0799b0799a0799907998079970799607995079940799307992,
  0x079c1079c0079bf079be079bd079bc079bb079ba079b9079b8079b7079b6079b5079b4079b3079b2079b1079b0079af079ae079ad079ac079ab079aa,
  0x079d9079d8079d7079d6079d5079d4079d3079d2079d1079d0079cf079ce079cd079cc079cb079ca079c9079c8079c7079c6079c5079c4079c3079c2,
  0x079f1079f0079ef079ee079ed079ec079eb079ea079e9079e8079e7079e6079e5079e4079e3079e2079e1079e0079df079de079dd079dc079db079da,
  0x07a0907a0807a0707a0607a0507a0407a0307a0207a0107a00079ff079fe079fd079fc079fb079fa079f9079f8079f7079f6079f5079f4079f3079f2,
  0x07a2107a2007a1f07a1e07a1d07a1c07a1b07a1a07a1907a1807a1707a1607a1507a1407a1307a1207a1107a1007a0f07a0e07a0d07a0c07a0b07a0a,
  0x07a3907a3807a3707a3607a3507a3407a3307a3207a3107a3007a2f07a2e07a2d07a2c07a2b07a2a07a2907a2807a2707a2607a2507a2407a2307a22,
  0x07a5107a5007a4f07a4e07a4d07a4c07a4b07a4a07a4907a4807a4707a4607a4507a4407a4307a4207a4107a4007a3f07a3e07a3d07a3c07a3b07a3a,
  0x07a6907a6807a6707a6607a6507a6407a6307a6207a6107a6007a5f07a5e07a5d07a5c07a5b07a5a07a5907a5807a5707a5607a5507a5407a5307a52,
  0x07a8107a8007a7f07a7e07a7d07a7c07a7b07a7a07a7907a7807a7707a7607a7507a7407a7307a7207a7107a7007a6f07a6e07a6d07a6c07a6b07a6a,
  0x07a9907a9807a9707a9607a9507a9407a9307a9207a9107a9007a8f07a8e07a8d07a8c07a8b07a8a07a8907a8807a8707a8607a8507a8407a8307a82,
  0x07ab107ab007aaf07aae07aad07aac07aab07aaa07aa907aa807aa707aa607aa507aa407aa307aa207aa107aa007a9f07a9e07a9d07a9c07a9b07a9a,
  0x07ac907ac807ac707ac607ac507ac407ac307ac207ac107ac007abf07abe07abd07abc07abb07aba07ab907ab807ab707ab607ab507ab407ab307ab2,
  0x07ae107ae007adf07ade07add07adc07adb07ada07ad907ad807ad707ad607ad507ad407ad307ad207ad107ad007acf07ace07acd07acc07acb07aca,
  0x07af907af807af707af607af507af407af307af207af107af007aef07aee07aed07aec07aeb07aea07ae907ae807ae707ae607ae507ae407ae307ae2,
  0x07b1107b1007b0f07b0e07b0d07b0c07b0b07b0a07b0907b0807b0707b0607b0507b0407b0307b0207b0107b0007aff07afe07afd07afc07afb07afa,
  0x07b2907b2807b2707b2607b2507b2407b2307b2207b2107b2007b1f07b1e07b1d07b1c07b1b07b1a07b1907b1807b1707b1607b1507b1407b1307b12,
  0x07b4107b4007b3f07b3e07b3d07b3c07b3b07b3a07b3907b3807b3707b3607b3507b3407b3307b3207b3107b3007b2f07b2e07b2d07b2c07b2b07b2a,
  0x07b5907b5807b5707b5607b5507b5407b5307b5207b5107b5007b4f07b4e07b4d07b4c07b4b07b4a07b4907b4807b4707b4607b4507b4407b4307b42,
  0x07b7107b7007b6f07b6e07b6d07b6c07b6b07b6a07b6907b6807b6707b6607b6507b6407b6307b6207b6107b6007b5f07b5e07b5d07b5c07b5b07b5a,
  0x07b8907b8807b8707b8607b8507b8407b8307b8207b8107b8007b7f07b7e07b7d07b7c07b7b07b7a07b7907b7807b7707b7607b7507b7407b7307b72,
  0x07ba107ba007b9f07b9e07b9d07b9c07b9b07b9a07b9907b9807b9707b9607b9507b9407b9307b9207b9107b9007b8f07b8e07b8d07b8c07b8b07b8a,
  0x07bb907bb807bb707bb607bb507bb407bb307bb207bb107bb007baf07bae07bad07bac07bab07baa07ba907ba807ba707ba607ba507ba407ba307ba2,
  0x07bd107bd007bcf07bce07bcd07bcc07bcb07bca07bc907bc807bc707bc607bc507bc407bc307bc207bc107bc007bbf07bbe07bbd07bbc07bbb07bba,
  0x07be907be807be707be607be507be407be307be207be107be007bdf07bde07bdd07bdc07bdb07bda07bd907bd807bd707bd607bd507bd407bd307bd2,
  0x07c0107c0007bff07bfe07bfd07bfc07bfb07bfa07bf907bf807bf707bf607bf507bf407bf307bf207bf107bf007bef07bee07bed07bec07beb07bea,
  0x07c1907c1807c1707c1607c1507c1407c1307c1207c1107c1007c0f07c0e07c0d07c0c07c0b07c0a07c0907c0807c0707c0607c0507c0407c0307c02,
  0x07c3107c3007c2f07c2e07c2d07c2c07c2b07c2a07c2907c2807c2707c2607c2507c2407c2307c2207c2107c2007c1f07c1e07c1d07c1c07c1b07c1a,
  0x07c4907c4807c4707c4607c4507c4407c4307c4207c4107c4007c3f07c3e07c3d07c3c07c3b07c3a07c3907c3807c3707c3607c3507c3407c3307c32,
  0x07c6107c6007c5f07c5e07c5d07c5c07c5b07c5a07c5907c5807c5707c5607c5507c5407c5307c5207c5107c5007c4f07c4e07c4d07c4c07c4b07c4a,
  0x07c7907c7807c7707c7607c7507c7407c7307c7207c7107c7007c6f07c6e07c6d07c6c07c6b07c6a07c6907c6807c6707c6607c6507c6407c6307c62,
  0x07c9107c9007c8f07c8e07c8d07c8c07c8b07c8a07c8907c8807c8707c8607c8507c8407c8307c8207c8107c8007c7f07c7e07c7d07c7c07c7b07c7a,
  0x07ca907ca807ca707ca607ca507ca407ca307ca207ca107ca007c9f07c9e07c9d07c9c07c9b07c9a07c9907c9807c9707c9607c9507c9407c9307c92,
  0x07cc107cc007cbf07cbe07cbd07cbc07cbb07cba07cb907cb807cb707cb607cb507cb407cb307cb207cb107cb007caf07cae07cad07cac07cab07caa,
  0x07cd907cd807cd707cd607cd507cd407cd307cd207cd107cd007ccf07cce07ccd07ccc07ccb07cca07cc907cc807cc707cc607cc507cc407cc307cc2,
  0x07cf107cf007cef07cee07ced07cec07ceb07cea07ce907ce807ce707ce607ce507ce407ce307ce207ce107ce007cdf07cde07cdd07cdc07cdb07cda,
  0x07d0907d0807d0707d0607d0507d0407d0307d0207d0107d0007cff07cfe07cfd07cfc07cfb07cfa07cf907cf807cf707cf607cf507cf407cf307cf2,
  0x07d2107d2007d1f07d1e07d1d07d1c07d1b07d1a07d1907d1807d1707d1607d1507d1407d1307d1207d1107d1007d0f07d0e07d0d07d0c07d0b07d0a,
  0x07d3907d3807d3707d3607d3507d3407d3307d3207d3107d3007d2f07d2e07d2d07d2c07d2b07d2a07d2907d2807d2707d2607d2507d2407d2307d22,
  0x07d5107d5007d4f07d4e07d4d07d4c07d4b07d4a07d4907d4807d4707d4607d4507d4407d4307d4207d4107d4007d3f07d3e07d3d07d3c07d3b07d3a,
  0x07d6907d6807d6707d6607d6507d6407d6307d6207d6107d6007d5f07d5e07d5d07d5c07d5b07d5a07d5907d5807d5707d5607d5507d5407d5307d52,
  0x07d8107d8007d7f07d7e07d7d07d7c07d7b07d7a07d7907d7807d7707d7607d7507d7407d7307d7207d7107d7007d6f07d6e07d6d07d6c07d6b07d6a,
  0x07d9907d9807d9707d9607d9507d9407d9307d9207d9107d9007d8f07d8e07d8d07d8c07d8b07d8a07d8907d8807d8707d8607d8507d8407d8307d82,
  0x07db107db007daf07dae07dad07dac07dab07daa07da907da807da707da607da507da407da307da207da107da007d9f07d9e07d9d07d9c07d9b07d9a,
  0x07dc907dc807dc707dc607dc507dc407dc307dc207dc107dc007dbf07dbe07dbd07dbc07dbb07dba07db907db807db707db607db507db407db307db2,
  0x07de107de007ddf07dde07ddd07ddc07ddb07dda07dd907dd807dd707dd607dd507dd407dd307dd207dd107dd007dcf07dce07dcd07dcc07dcb07dca,
  0x07df907df807df707df607df507df407df307df207df107df007def07dee07ded07dec07deb07dea07de907de807de707de607de507de407de307de2,
  0x07e1107e1007e0f07e0e07e0d07e0c07e0b07e0a07e0907e0807e0707e0607e0507e0407e0307e0207e0107e0007dff07dfe07dfd07dfc07dfb07dfa,
  0x07e2907e2807e2707e2607e2507e2407e2307e2207e2107e2007e1f07e1e07e1d07e1c07e1b07e1a07e1907e1807e1707e1607e1507e1407e1307e12,
  0x07e4107e4007e3f07e3e07e3d07e3c07e3b07e3a07e3907e3807e3707e3607e3507e3407e3307e3207e3107e3007e2f07e2e07e2d07e2c07e2b07e2a,
  0x07e5907e5807e5707e5607e5507e5407e5307e5207e5107e5007e4f07e4e07e4d07e4c07e4b07e4a07e4907e4807e4707e4607e4507e4407e4307e42,
  0x07e7107e7007e6f07e6e07e6d07e6c07e6b07e6a07e6907e6807e6707e6607e6507e6407e6307e6207e6107e6007e5f07e5e07e5d07e5c07e5b07e5a,
  0x07e8907e8807e8707e8607e8507e8407e8307e8207e8107e8007e7f07e7e07e7d07e7c07e7b07e7a07e7907e7807e7707e7607e7507e7407e7307e72,
  0x07ea107ea007e9f07e9e07e9d07e9c07e9b07e9a07e9907e9807e9707e9607e9507e9407e9307e9207e9107e9007e8f07e8e07e8d07e8c07e8b07e8a,
  0x07eb907eb807eb707eb607eb507eb407eb307eb207eb107eb007eaf07eae07ead07eac07eab07eaa07ea907ea807ea707ea607ea507ea407ea307ea2,
  0x07ed107ed007ecf07ece07ecd07ecc07ecb07eca07ec907ec807ec707ec607ec507ec407ec307ec207ec107ec007ebf07ebe07ebd07ebc07ebb07eba,
  0x07ee907ee807ee707ee607ee507ee407ee307ee207ee107ee007edf07ede07edd07edc07edb07eda07ed907ed807ed707ed607ed507ed407ed307ed2,
  0x07f0107f0007eff07efe07efd07efc07efb07efa07ef907ef807ef707ef607ef507ef407ef307ef207ef107ef007eef07eee07eed07eec07eeb07eea,
  0x07f1907f1807f1707f1607f1507f1407f1307f1207f1107f1007f0f07f0e07f0d07f0c07f0b07f0a07f0907f0807f0707f0607f0507f0407f0307f02,
  0x07f3107f3007f2f07f2e07f2d07f2c07f2b07f2a07f2907f2807f2707f2607f2507f2407f2307f2207f2107f2007f1f07f1e07f1d07f1c07f1b07f1a,
  0x07f4907f4807f4707f4607f4507f4407f4307f4207f4107f4007f3f07f3e07f3d07f3c07f3b07f3a07f3907f3807f3707f3607f3507f3407f3307f32,
  0x07f6107f6007f5f07f5e07f5d07f5c07f5b07f5a07f5907f5807f5707f5607f5507f5407f5307f5207f5107f5007f4f07f4e07f4d07f4c07f4b07f4a,
  0x07f7907f7807f7707f7607f7507f7407f7307f7207f7107f7007f6f07f6e07f6d07f6c07f6b07f6a07f6907f6807f6707f6607f6507f6407f6307f62,
  0x07f9107f9007f8f07f8e07f8d07f8c07f8b07f8a07f8907f8807f8707f8607f8507f8407f8307f8207f8107f8007f7f07f7e07f7d07f7c07f7b07f7a,
  0x07fa907fa807fa707fa607fa507fa407fa307fa207fa107fa007f9f07f9e07f9d07f9c07f9b07f9a07f9907f9807f9707f9607f9507f9407f9307f92,
  0x07fc107fc007fbf07fbe07fbd07fbc07fbb07fba07fb907fb807fb707fb607fb507fb407fb307fb207fb107fb007faf07fae07fad07fac07fab07faa,
  0x07fd907fd807fd707fd607fd507fd407fd307fd207fd107fd007fcf07fce07fcd07fcc07fcb07fca07fc907fc807fc707fc607fc507fc407fc307fc2,
  0x07ff107ff007fef07fee07fed07fec07feb07fea07fe907fe807fe707fe607fe507fe407fe307fe207fe107fe007fdf07fde07fdd07fdc07fdb07fda,
  0x0800908008080070800608005080040800308002080010800007fff07ffe07ffd07ffc07ffb07ffa07ff907ff807ff707ff607ff507ff407ff307ff2,
  0x08021080200801f0801e0801d0801c0801b0801a080190801808017080160801508014080130801208011080100800f0800e0800d0800c0800b0800a,
  0x080390803808037080360803508034080330803208031080300802f0802e0802d0802c0802b0802a0802908028080270802608025080240802308022,
  0x08051080500804f0804e0804d0804c0804b0804a080490804808047080460804508044080430804208041080400803f0803e0803d0803c0803b0803a,
  0x080690806808067080660806508064080630806208061080600805f0805e0805d0805c0805b0805a0805908058080570805608055080540805308052,
  0x08081080800807f0807e0807d0807c0807b0807a080790807808077080760807508074080730807208071080700806f0806e0806d0806c0806b0806a,
  0x080990809808097080960809508094080930809208091080900808f0808e0808d0808c0808b0808a0808908088080870808608085080840808308082,
  0x080b1080b0080af080ae080ad080ac080ab080aa080a9080a8080a7080a6080a5080a4080a3080a2080a1080a00809f0809e0809d0809c0809b0809a,
  0x080c9080c8080c7080c6080c5080c4080c3080c2080c1080c0080bf080be080bd080bc080bb080ba080b9080b8080b7080b6080b5080b4080b3080b2,
  0x080e1080e0080df080de080dd080dc080db080da080d9080d8080d7080d6080d5080d4080d3080d2080d1080d0080cf080ce080cd080cc080cb080ca,
  0x080f9080f8080f7080f6080f5080f4080f3080f2080f1080f0080ef080ee080ed080ec080eb080ea080e9080e8080e7080e6080e5080e4080e3080e2,
  0x08111081100810f0810e0810d0810c0810b0810a08109081080810708106081050810408103081020810108100080ff080fe080fd080fc080fb080fa,
  0x081290812808127081260812508124081230812208121081200811f0811e0811d0811c0811b0811a0811908118081170811608115081140811308112,
  0x08141081400813f0813e0813d0813c0813b0813a081390813808137081360813508134081330813208131081300812f0812e0812d0812c0812b0812a,
  0x081590815808157081560815508154081530815208151081500814f0814e0814d0814c0814b0814a0814908148081470814608145081440814308142,
  0x08171081700816f0816e0816d0816c0816b0816a081690816808167081660816508164081630816208161081600815f0815e0815d0815c0815b0815a,
  0x081890818808187081860818508184081830818208181081800817f0817e0817d0817c0817b0817a0817908178081770817608175081740817308172,
  0x081a1081a00819f0819e0819d0819c0819b0819a081990819808197081960819508194081930819208191081900818f0818e0818d0818c0818b0818a,
  0x081b9081b8081b7081b6081b5081b4081b3081b2081b1081b0081af081ae081ad081ac081ab081aa081a9081a8081a7081a6081a5081a4081a3081a2,
  0x081d1081d0081cf081ce081cd081cc081cb081ca081c9081c8081c7081c6081c5081c4081c3081c2081c1081c0081bf081be081bd081bc081bb081ba,
  0x081e9081e8081e7081e6081e5081e4081e3081e2081e1081e0081df081de081dd081dc081db081da081d9081d8081d7081d6081d5081d4081d3081d2,
  0x0820108200081ff081fe081fd081fc081fb081fa081f9081f8081f7081f6081f5081f4081f3081f2081f1081f0081ef081ee081ed081ec081eb081ea,
  0x082190821808217082160821508214082130821208211082100820f0820e0820d0820c0820b0820a0820908208082070820608205082040820308202,
  0x08231082300822f0822e0822d0822c0822b0822a082290822808227082260822508224082230822208221082200821f0821e0821d0821c0821b0821a,
  0x082490824808247082460824508244082430824208241082400823f0823e0823d0823c0823b0823a0823908238082370823608235082340823308232,
  0x08261082600825f0825e0825d0825c0825b0825a082590825808257082560825508254082530825208251082500824f0824e0824d0824c0824b0824a,
  0x082790827808277082760827508274082730827208271082700826f0826e0826d0826c0826b0826a0826908268082670826608265082640826308262,
  0x08291082900828f0828e0828d0828c0828b0828a082890828808287082860828508284082830828208281082800827f0827e0827d0827c0827b0827a,
  0x082a9082a8082a7082a6082a5082a4082a3082a2082a1082a00829f0829e0829d0829c0829b0829a0829908298082970829608295082940829308292,
  0x082c1082c0082bf082be082bd082bc082bb082ba082b9082b8082b7082b6082b5082b4082b3082b2082b1082b0082af082ae082ad082ac082ab082aa,
  0x082d9082d8082d7082d6082d5082d4082d3082d2082d1082d0082cf082ce082cd082cc082cb082ca082c9082c8082c7082c6082c5082c4082c3082c2,
  0x082f1082f0082ef082ee082ed082ec082eb082ea082e9082e8082e7082e6082e5082e4082e3082e2082e1082e0082df082de082dd082dc082db082da,
  0x08309083080830708306083050830408303083020830108300082ff082fe082fd082fc082fb082fa082f9082f8082f7082f6082f5082f4082f3082f2,
  0x08321083200831f0831e0831d0831c0831b0831a083190831808317083160831508314083130831208311083100830f0830e0830d0830c0830b0830a,
  0x083390833808337083360833508334083330833208331083300832f0832e0832d0832c0832b0832a0832908328083270832608325083240832308322,
  0x08351083500834f0834e0834d0834c0834b0834a083490834808347083460834508344083430834208341083400833f0833e0833d0833c0833b0833a,
  0x083690836808367083660836508364083630836208361083600835f0835e0835d0835c0835b0835a0835908358083570835608355083540835308352,
  0x08381083800837f0837e0837d0837c0837b0837a083790837808377083760837508374083730837208371083700836f0836e0836d0836c0836b0836a,
  0x083990839808397083960839508394083930839208391083900838f0838e0838d0838c0838b0838a0838908388083870838608385083840838308382,
  0x083b1083b0083af083ae083ad083ac083ab083aa083a9083a8083a7083a6083a5083a4083a3083a2083a1083a00839f0839e0839d0839c0839b0839a,
  0x083c9083c8083c7083c6083c5083c4083c3083c2083c1083c0083bf083be083bd083bc083bb083ba083b9083b8083b7083b6083b5083b4083b3083b2,
  0x083e1083e0083df083de083dd083dc083db083da083d9083d8083d7083d6083d5083d4083d3083d2083d1083d0083cf083ce083cd083cc083cb083ca,
  0x083f9083f8083f7083f6083f5083f4083f3083f2083f1083f0083ef083ee083ed083ec083eb083ea083e9083e8083e7083e6083e5083e4083e3083e2,
  0x08411084100840f0840e0840d0840c0840b0840a08409084080840708406084050840408403084020840108400083ff083fe083fd083fc083fb083fa,
  0x084290842808427084260842508424084230842208421084200841f0841e0841d0841c0841b0841a0841908418084170841608415084140841308412,
  0x08441084400843f0843e0843d0843c0843b0843a084390843808437084360843508434084330843208431084300842f0842e0842d0842c0842b0842a,
  0x084590845808457084560845508454084530845208451084500844f0844e0844d0844c0844b0844a0844908448084470844608445084440844308442,
  0x08471084700846f0846e0846d0846c0846b0846a084690846808467084660846508464084630846208461084600845f0845e0845d0845c0845b0845a,
  0x084890848808487084860848508484084830848208481084800847f0847e0847d0847c0847b0847a0847908478084770847608475084740847308472,
  0x084a1084a00849f0849e0849d0849c0849b0849a084990849808497084960849508494084930849208491084900848f0848e0848d0848c0848b0848a,
  0x084b9084b8084b7084b6084b5084b4084b3084b2084b1084b0084af084ae084ad084ac084ab084aa084a9084a8084a7084a6084a5084a4084a3084a2,
  0x084d1084d0084cf084ce084cd084cc084cb084ca084c9084c8084c7084c6084c5084c4084c3084c2084c1084c0084bf084be084bd084bc084bb084ba,
  0x084e9084e8084e7084e6084e5084e4084e3084e2084e1084e0084df084de084dd084dc084db084da084d9084d8084d7084d6084d5084d4084d3084d2,
  0x0850108500084ff084fe084fd084fc084fb084fa084f9084f8084f7084f6084f5084f4084f3084f2084f1084f0084ef084ee084ed084ec084eb084ea,
  0x085190851808517085160851508514085130851208511085100850f0850e0850d0850c0850b0850a0850908508085070850608505085040850308502,
  0x08531085300852f0852e0852d0852c0852b0852a085290852808527085260852508524085230852208521085200851f0851e0851d0851c0851b0851a,
  0x085490854808547085460854508544085430854208541085400853f0853e0853d0853c0853b0853a0853908538085370853608535085340853308532,
  0x08561085600855f0855e0855d0855c0855b0855a085590855808557085560855508554085530855208551085500854f0854e0854d0854c0854b0854a,
  0x085790857808577085760857508574085730857208571085700856f0856e0856d0856c0856b0856a0856908568085670856608565085640856308562,
  0x08591085900858f0858e0858d0858c0858b0858a085890858808587085860858508584085830858208581085800857f0857e0857d0857c0857b0857a,
  0x085a9085a8085a7085a6085a5085a4085a3085a2085a1085a00859f0859e0859d0859c0859b0859a0859908598085970859608595085940859308592,
  0x085c1085c0085bf085be085bd085bc085bb085ba085b9085b8085b7085b6085b5085b4085b3085b2085b1085b0085af085ae085ad085ac085ab085aa,
  0x085d9085d8085d7085d6085d5085d4085d3085d2085d1085d0085cf085ce085cd085cc085cb085ca085c9085c8085c7085c6085c5085c4085c3085c2,
  0x085f1085f0085ef085ee085ed085ec085eb085ea085e9085e8085e7085e6085e5085e4085e3085e2085e1085e0085df085de085dd085dc085db085da,
  0x08609086080860708606086050860408603086020860108600085ff085fe085fd085fc085fb085fa085f9085f8085f7085f6085f5085f4085f3085f2,
  0x08621086200861f0861e0861d0861c0861b0861a086190861808617086160861508614086130861208611086100860f0860e0860d0860c0860b0860a,
  0x086390863808637086360863508634086330863208631086300862f0862e0862d0862c0862b0862a0862908628086270862608625086240862308622,
  0x08651086500864f0864e0864d0864c0864b0864a086490864808647086460864508644086430864208641086400863f0863e0863d0863c0863b0863a,
  0x086690866808667086660866508664086630866208661086600865f0865e0865d0865c0865b0865a0865908658086570865608655086540865308652,
  0x08681086800867f0867e0867d0867c0867b0867a086790867808677086760867508674086730867208671086700866f0866e0866d0866c0866b0866a,
  0x086990869808697086960869508694086930869208691086900868f0868e0868d0868c0868b0868a0868908688086870868608685086840868308682,
  0x086b1086b0086af086ae086ad086ac086ab086aa086a9086a8086a7086a6086a5086a4086a3086a2086a1086a00869f0869e0869d0869c0869b0869a,
  0x086c9086c8086c7086c6086c5086c4086c3086c2086c1086c0086bf086be086bd086bc086bb086ba086b9086b8086b7086b6086b5086b4086b3086b2,
  0x086e1086e0086df086de086dd086dc086db086da086d9086d8086d7086d6086d5086d4086d3086d2086d1086d0086cf086ce086cd086cc086cb086ca,
  0x086f9086f8086f7086f6086f5086f4086f3086f2086f1086f0086ef086ee086ed086ec086eb086ea086e9086e8086e7086e6086e5086e4086e3086e2,
  0x08711087100870f0870e0870d0870c0870b0870a08709087080870708706087050870408703087020870108700086ff086fe086fd086fc086fb086fa,
  0x087290872808727087260872508724087230872208721087200871f0871e0871d0871c0871b0871a0871908718087170871608715087140871308712,
  0x08741087400873f0873e0873d0873c0873b0873a087390873808737087360873508734087330873208731087300872f0872e0872d0872c0872b0872a,
  0x087590875808757087560875508754087530875208751087500874f0874e0874d0874c0874b0874a0874908748087470874608745087440874308742,
  0x08771087700876f0876e0876d0876c0876b0876a087690876808767087660876508764087630876208761087600875f0875e0875d0875c0875b0875a,
  0x087890878808787087860878508784087830878208781087800877f0877e0877d0877c0877b0877a0877908778087770877608775087740877308772,
  0x087a1087a00879f0879e0879d0879c0879b0879a087990879808797087960879508794087930879208791087900878f0878e0878d0878c0878b0878a,
  0x087b9087b8087b7087b6087b5087b4087b3087b2087b1087b0087af087ae087ad087ac087ab087aa087a9087a8087a7087a6087a5087a4087a3087a2,
  0x087d1087d0087cf087ce087cd087cc087cb087ca087c9087c8087c7087c6087c5087c4087c3087c2087c1087c0087bf087be087bd087bc087bb087ba,
  0x087e9087e8087e7087e6087e5087e4087e3087e2087e1087e0087df087de087dd087dc087db087da087d9087d8087d7087d6087d5087d4087d3087d2,
  0x0880108800087ff087fe087fd087fc087fb087fa087f9087f8087f7087f6087f5087f4087f3087f2087f1087f0087ef087ee087ed087ec087eb087ea,
  0x088190881808817088160881508814088130881208811088100880f0880e0880d0880c0880b0880a0880908808088070880608805088040880308802,
  0x08831088300882f0882e0882d0882c0882b0882a088290882808827088260882508824088230882208821088200881f0881e0881d0881c0881b0881a,
  0x088490884808847088460884508844088430884208841088400883f0883e0883d0883c0883b0883a0883908838088370883608835088340883308832,
  0x08861088600885f0885e0885d0885c0885b0885a088590885808857088560885508854088530885208851088500884f0884e0884d0884c0884b0884a,
  0x088790887808877088760887508874088730887208871088700886f0886e0886d0886c0886b0886a0886908868088670886608865088640886308862,
  0x08891088900888f0888e0888d0888c0888b0888a088890888808887088860888508884088830888208881088800887f0887e0887d0887c0887b0887a,
  0x088a9088a8088a7088a6088a5088a4088a3088a2088a1088a00889f0889e0889d0889c0889b0889a0889908898088970889608895088940889308892,
  0x088c1088c0088bf088be088bd088bc088bb088ba088b9088b8088b7088b6088b5088b4088b3088b2088b1088b0088af088ae088ad088ac088ab088aa,
  0x088d9088d8088d7088d6088d5088d4088d3088d2088d1088d0088cf088ce088cd088cc088cb088ca088c9088c8088c7088c6088c5088c4088c3088c2,
  0x088f1088f0088ef088ee088ed088ec088eb088ea088e9088e8088e7088e6088e5088e4088e3088e2088e1088e0088df088de088dd088dc088db088da,
  0x08909089080890708906089050890408903089020890108900088ff088fe088fd088fc088fb088fa088f9088f8088f7088f6088f5088f4088f3088f2,
  0x08921089200891f0891e0891d0891c0891b0891a089190891808917089160891508914089130891208911089100890f0890e0890d0890c0890b0890a,
  0x089390893808937089360893508934089330893208931089300892f0892e0892d0892c0892b0892a0892908928089270892608925089240892308922,
  0x08951089500894f0894e0894d0894c0894b0894a089490894808947089460894508944089430894208941089400893f0893e0893d0893c0893b0893a,
  0x089690896808967089660896508964089630896208961089600895f0895e0895d0895c0895b0895a0895908958089570895608955089540895308952,
  0x08981089800897f0897e0897d0897c0897b0897a089790897808977089760897508974089730897208971089700896f0896e0896d0896c0896b0896a,
  0x089990899808997089960899508994089930899208991089900898f0898e0898d0898c0898b0898a0898908988089870898608985089840898308982,
  0x089b1089b0089af089ae089ad089ac089ab089aa089a9089a8089a7089a6089a5089a4089a3089a2089a1089a00899f0899e0899d0899c0899b0899a,
  0x089c9089c8089c7089c6089c5089c4089c3089c2089c1089c0089bf089be089bd089bc089bb089ba089b9089b8089b7089b6089b5089b4089b3089b2,
  0x089e1089e0089df089de089dd089dc089db089da089d9089d8089d7089d6089d5089d4089d3089d2089d1089d0089cf089ce089cd089cc089cb089ca,
  0x089f9089f8089f7089f6089f5089f4089f3089f2089f1089f0089ef089ee089ed089ec089eb089ea089e9089e8089e7089e6089e5089e4089e3089e2,
  0x08a1108a1008a0f08a0e08a0d08a0c08a0b08a0a08a0908a0808a0708a0608a0508a0408a0308a0208a0108a00089ff089fe089fd089fc089fb089fa,
  0x08a2908a2808a2708a2608a2508a2408a2308a2208a2108a2008a1f08a1e08a1d08a1c08a1b08a1a08a1908a1808a1708a1608a1508a1408a1308a12,
  0x08a4108a4008a3f08a3e08a3d08a3c08a3b08a3a08a3908a3808a3708a3608a3508a3408a3308a3208a3108a3008a2f08a2e08a2d08a2c08a2b08a2a,
  0x08a5908a5808a5708a5608a5508a5408a5308a5208a5108a5008a4f08a4e08a4d08a4c08a4b08a4a08a4908a4808a4708a4608a4508a4408a4308a42,
  0x08a7108a7008a6f08a6e08a6d08a6c08a6b08a6a08a6908a6808a6708a6608a6508a6408a6308a6208a6108a6008a5f08a5e08a5d08a5c08a5b08a5a,
  0x08a8908a8808a8708a8608a8508a8408a8308a8208a8108a8008a7f08a7e08a7d08a7c08a7b08a7a08a7908a7808a7708a7608a7508a7408a7308a72,
  0x08aa108aa008a9f08a9e08a9d08a9c08a9b08a9a08a9908a9808a9708a9608a9508a9408a9308a9208a9108a9008a8f08a8e08a8d08a8c08a8b08a8a,
  0x08ab908ab808ab708ab608ab508ab408ab308ab208ab108ab008aaf08aae08aad08aac08aab08aaa08aa908aa808aa708aa608aa508aa408aa308aa2,
  0x08ad108ad008acf08ace08acd08acc08acb08aca08ac908ac808ac708ac608ac508ac408ac308ac208ac108ac008abf08abe08abd08abc08abb08aba,
  0x08ae908ae808ae708ae608ae508ae408ae308ae208ae108ae008adf08ade08add08adc08adb08ada08ad908ad808ad708ad608ad508ad408ad308ad2,
  0x08b0108b0008aff08afe08afd08afc08afb08afa08af908af808af708af608af508af408af308af208af108af008aef08aee08aed08aec08aeb08aea,
  0x08b1908b1808b1708b1608b1508b1408b1308b1208b1108b1008b0f08b0e08b0d08b0c08b0b08b0a08b0908b0808b0708b0608b0508b0408b0308b02,
  0x08b3108b3008b2f08b2e08b2d08b2c08b2b08b2a08b2908b2808b2708b2608b2508b2408b2308b2208b2108b2008b1f08b1e08b1d08b1c08b1b08b1a,
  0x08b4908b4808b4708b4608b4508b4408b4308b4208b4108b4008b3f08b3e08b3d08b3c08b3b08b3a08b3908b3808b3708b3608b3508b3408b3308b32,
  0x08b6108b6008b5f08b5e08b5d08b5c08b5b08b5a08b5908b5808b5708b5608b5508b5408b5308b5208b5108b5008b4f08b4e08b4d08b4c08b4b08b4a,
  0x08b7908b7808b7708b7608b7508b7408b7308b7208b7108b7008b6f08b6e08b6d08b6c08b6b08b6a08b6908b6808b6708b6608b6508b6408b6308b62,
  0x08b9108b9008b8f08b8e08b8d08b8c08b8b08b8a08b8908b8808b8708b8608b8508b8408b8308b8208b8108b8008b7f08b7e08b7d08b7c08b7b08b7a,
  0x08ba908ba808ba708ba608ba508ba408ba308ba208ba108ba008b9f08b9e08b9d08b9c08b9b08b9a08b9908b9808b9708b9608b9508b9408b9308b92,
  0x08bc108bc008bbf08bbe08bbd08bbc08bbb08bba08bb908bb808bb708bb608bb508bb408bb308bb208bb108bb008baf08bae08bad08bac08bab08baa,
  0x08bd908bd808bd708bd608bd508bd408bd308bd208bd108bd008bcf08bce08bcd08bcc08bcb08bca08bc908bc808bc708bc608bc508bc408bc308bc2,
  0x08bf108bf008bef08bee08bed08bec08beb08bea08be908be808be708be608be508be408be308be208be108be008bdf08bde08bdd08bdc08bdb08bda,
  0x08c0908c0808c0708c0608c0508c0408c0308c0208c0108c0008bff08bfe08bfd08bfc08bfb08bfa08bf908bf808bf708bf608bf508bf408bf308bf2,
  0x08c2108c2008c1f08c1e08c1d08c1c08c1b08c1a08c1908c1808c1708c1608c1508c1408c1308c1208c1108c1008c0f08c0e08c0d08c0c08c0b08c0a,
  0x08c3908c3808c3708c3608c3508c3408c3308c3208c3108c3008c2f08c2e08c2d08c2c08c2b08c2a08c2908c2808c2708c2608c2508c2408c2308c22,
  0x08c5108c5008c4f08c4e08c4d08c4c08c4b08c4a08c4908c4808c4708c4608c4508c4408c4308c4208c4108c4008c3f08c3e08c3d08c3c08c3b08c3a,
  0x08c6908c6808c6708c6608c6508c6408c6308c6208c6108c6008c5f08c5e08c5d08c5c08c5b08c5a08c5908c5808c5708c5608c5508c5408c5308c52,
  0x08c8108c8008c7f08c7e08c7d08c7c08c7b08c7a08c7908c7808c7708c7608c7508c7408c7308c7208c7108c7008c6f08c6e08c6d08c6c08c6b08c6a,
  0x08c9908c9808c9708c9608c9508c9408c9308c9208c9108c9008c8f08c8e08c8d08c8c08c8b08c8a08c8908c8808c8708c8608c8508c8408c8308c82,
  0x08cb108cb008caf08cae08cad08cac08cab08caa08ca908ca808ca708ca608ca508ca408ca308ca208ca108ca008c9f08c9e08c9d08c9c08c9b08c9a,
  0x08cc908cc808cc708cc608cc508cc408cc308cc208cc108cc008cbf08cbe08cbd08cbc08cbb08cba08cb908cb808cb708cb608cb508cb408cb308cb2,
  0x08ce108ce008cdf08cde08cdd08cdc08cdb08cda08cd908cd808cd708cd608cd508cd408cd308cd208cd108cd008ccf08cce08ccd08ccc08ccb08cca,
  0x08cf908cf808cf708cf608cf508cf408cf308cf208cf108cf008cef08cee08ced08cec08ceb08cea08ce908ce808ce708ce608ce508ce408ce308ce2,
  0x08d1108d1008d0f08d0e08d0d08d0c08d0b08d0a08d0908d0808d0708d0608d0508d0408d0308d0208d0108d0008cff08cfe08cfd08cfc08cfb08cfa,
  0x08d2908d2808d2708d2608d2508d2408d2308d2208d2108d2008d1f08d1e08d1d08d1c08d1b08d1a08d1908d1808d1708d1608d1508d1408d1308d12,
  0x08d4108d4008d3f08d3e08d3d08d3c08d3b08d3a08d3908d3808d3708d3608d3508d3408d3308d3208d3108d3008d2f08d2e08d2d08d2c08d2b08d2a,
  0x08d5908d5808d5708d5608d5508d5408d5308d5208d5108d5008d4f08d4e08d4d08d4c08d4b08d4a08d4908d4808d4708d4608d4508d4408d4308d42,
  0x08d7108d7008d6f08d6e08d6d08d6c08d6b08d6a08d6908d6808d6708d6608d6508d6408d6308d6208d6108d6008d5f08d5e08d5d08d5c08d5b08d5a,
  0x08d8908d8808d8708d8608d8508d8408d8308d8208d8108d8008d7f08d7e08d7d08d7c08d7b08d7a08d7908d7808d7708d7608d7508d7408d7308d72,
  0x08da108da008d9f08d9e08d9d08d9c08d9b08d9a08d9908d9808d9708d9608d9508d9408d9308d9208d9108d9008d8f08d8e08d8d08d8c08d8b08d8a,
  0x08db908db808db708db608db508db408db308db208db108db008daf08dae08dad08dac08dab08daa08da908da808da708da608da508da408da308da2,
  0x08dd108dd008dcf08dce08dcd08dcc08dcb08dca08dc908dc808dc708dc608dc508dc408dc308dc208dc108dc008dbf08dbe08dbd08dbc08dbb08dba,
  0x08de908de808de708de608de508de408de308de208de108de008ddf08dde08ddd08ddc08ddb08dda08dd908dd808dd708dd608dd508dd408dd308dd2,
  0x08e0108e0008dff08dfe08dfd08dfc08dfb08dfa08df908df808df708df608df508df408df308df208df108df008def08dee08ded08dec08deb08dea,
  0x08e1908e1808e1708e1608e1508e1408e1308e1208e1108e1008e0f08e0e08e0d08e0c08e0b08e0a08e0908e0808e0708e0608e0508e0408e0308e02,
  0x08e3108e3008e2f08e2e08e2d08e2c08e2b08e2a08e2908e2808e2708e2608e2508e2408e2308e2208e2108e2008e1f08e1e08e1d08e1c08e1b08e1a,
  0x08e4908e4808e4708e4608e4508e4408e4308e4208e4108e4008e3f08e3e08e3d08e3c08e3b08e3a08e3908e3808e3708e3608e3508e3408e3308e32,
  0x08e6108e6008e5f08e5e08e5d08e5c08e5b08e5a08e5908e5808e5708e5608e5508e5408e5308e5208e5108e5008e4f08e4e08e4d08e4c08e4b08e4a,
  0x08e7908e7808e7708e7608e7508e7408e7308e7208e7108e7008e6f08e6e08e6d08e6c08e6b08e6a08e6908e6808e6708e6608e6508e6408e6308e62,
  0x08e9108e9008e8f08e8e08e8d08e8c08e8b08e8a08e8908e8808e8708e8608e8508e8408e8308e8208e8108e8008e7f08e7e08e7d08e7c08e7b08e7a,
  0x08ea908ea808ea708ea608ea508ea408ea308ea208ea108ea008e9f08e9e08e9d08e9c08e9b08e9a08e9908e9808e9708e9608e9508e9408e9308e92,
  0x08ec108ec008ebf08ebe08ebd08ebc08ebb08eba08eb908eb808eb708eb608eb508eb408eb308eb208eb108eb008eaf08eae08ead08eac08eab08eaa,
  0x08ed908ed808ed708ed608ed508ed408ed308ed208ed108ed008ecf08ece08ecd08ecc08ecb08eca08ec908ec808ec708ec608ec508ec408ec308ec2,
  0x08ef108ef008eef08eee08eed08eec08eeb08eea08ee908ee808ee708ee608ee508ee408ee308ee208ee108ee008edf08ede08edd08edc08edb08eda,
  0x08f0908f0808f0708f0608f0508f0408f0308f0208f0108f0008eff08efe08efd08efc08efb08efa08ef908ef808ef708ef608ef508ef408ef308ef2,
  0x08f2108f2008f1f08f1e08f1d08f1c08f1b08f1a08f1908f1808f1708f1608f1508f1408f1308f1208f1108f1008f0f08f0e08f0d08f0c08f0b08f0a,
  0x08f3908f3808f3708f3608f3508f3408f3308f3208f3108f3008f2f08f2e08f2d08f2c08f2b08f2a08f2908f2808f2708f2608f2508f2408f2308f22,
  0x08f5108f5008f4f08f4e08f4d08f4c08f4b08f4a08f4908f4808f4708f4608f4508f4408f4308f4208f4108f4008f3f08f3e08f3d08f3c08f3b08f3a,
  0x08f6908f6808f6708f6608f6508f6408f6308f6208f6108f6008f5f08f5e08f5d08f5c08f5b08f5a08f5908f5808f5708f5608f5508f5408f5308f52,
  0x08f8108f8008f7f08f7e08f7d08f7c08f7b08f7a08f7908f7808f7708f7608f7508f7408f7308f7208f7108f7008f6f08f6e08f6d08f6c08f6b08f6a,
  0x08f9908f9808f9708f9608f9508f9408f9308f9208f9108f9008f8f08f8e08f8d08f8c08f8b08f8a08f8908f8808f8708f8608f8508f8408f8308f82,
  0x08fb108fb008faf08fae08fad08fac08fab08faa08fa908fa808fa708fa608fa508fa408fa308fa208fa108fa008f9f08f9e08f9d08f9c08f9b08f9a,
  0x08fc908fc808fc708fc608fc508fc408fc308fc208fc108fc008fbf08fbe08fbd08fbc08fbb08fba08fb908fb808fb708fb608fb508fb408fb308fb2,
  0x08fe108fe008fdf08fde08fdd08fdc08fdb08fda08fd908fd808fd708fd608fd508fd408fd308fd208fd108fd008fcf08fce08fcd08fcc08fcb08fca,
  0x08ff908ff808ff708ff608ff508ff408ff308ff208ff108ff008fef08fee08fed08fec08feb08fea08fe908fe808fe708fe608fe508fe408fe308fe2,
  0x09011090100900f0900e0900d0900c0900b0900a0900909008090070900609005090040900309002090010900008fff08ffe08ffd08ffc08ffb08ffa,
  0x090290902809027090260902509024090230902209021090200901f0901e0901d0901c0901b0901a0901909018090170901609015090140901309012,
  0x09041090400903f0903e0903d0903c0903b0903a090390903809037090360903509034090330903209031090300902f0902e0902d0902c0902b0902a,
  0x090590905809057090560905509054090530905209051090500904f0904e0904d0904c0904b0904a0904909048090470904609045090440904309042,
  0x09071090700906f0906e0906d0906c0906b0906a090690906809067090660906509064090630906209061090600905f0905e0905d0905c0905b0905a,
  0x090890908809087090860908509084090830908209081090800907f0907e0907d0907c0907b0907a0907909078090770907609075090740907309072,
  0x090a1090a00909f0909e0909d0909c0909b0909a090990909809097090960909509094090930909209091090900908f0908e0908d0908c0908b0908a,
  0x090b9090b8090b7090b6090b5090b4090b3090b2090b1090b0090af090ae090ad090ac090ab090aa090a9090a8090a7090a6090a5090a4090a3090a2,
  0x090d1090d0090cf090ce090cd090cc090cb090ca090c9090c8090c7090c6090c5090c4090c3090c2090c1090c0090bf090be090bd090bc090bb090ba,
  0x090e9090e8090e7090e6090e5090e4090e3090e2090e1090e0090df090de090dd090dc090db090da090d9090d8090d7090d6090d5090d4090d3090d2,
  0x0910109100090ff090fe090fd090fc090fb090fa090f9090f8090f7090f6090f5090f4090f3090f2090f1090f0090ef090ee090ed090ec090eb090ea,
  0x091190911809117091160911509114091130911209111091100910f0910e0910d0910c0910b0910a0910909108091070910609105091040910309102,
  0x09131091300912f0912e0912d0912c0912b0912a091290912809127091260912509124091230912209121091200911f0911e0911d0911c0911b0911a,
  0x091490914809147091460914509144091430914209141091400913f0913e0913d0913c0913b0913a0913909138091370913609135091340913309132,
  0x09161091600915f0915e0915d0915c0915b0915a091590915809157091560915509154091530915209151091500914f0914e0914d0914c0914b0914a,
  0x091790917809177091760917509174091730917209171091700916f0916e0916d0916c0916b0916a0916909168091670916609165091640916309162,
  0x09191091900918f0918e0918d0918c0918b0918a091890918809187091860918509184091830918209181091800917f0917e0917d0917c0917b0917a,
  0x091a9091a8091a7091a6091a5091a4091a3091a2091a1091a00919f0919e0919d0919c0919b0919a0919909198091970919609195091940919309192,
  0x091c1091c0091bf091be091bd091bc091bb091ba091b9091b8091b7091b6091b5091b4091b3091b2091b1091b0091af091ae091ad091ac091ab091aa,
  0x091d9091d8091d7091d6091d5091d4091d3091d2091d1091d0091cf091ce091cd091cc091cb091ca091c9091c8091c7091c6091c5091c4091c3091c2,
  0x091f1091f0091ef091ee091ed091ec091eb091ea091e9091e8091e7091e6091e5091e4091e3091e2091e1091e0091df091de091dd091dc091db091da,
  0x09209092080920709206092050920409203092020920109200091ff091fe091fd091fc091fb091fa091f9091f8091f7091f6091f5091f4091f3091f2,
  0x09221092200921f0921e0921d0921c0921b0921a092190921809217092160921509214092130921209211092100920f0920e0920d0920c0920b0920a,
  0x092390923809237092360923509234092330923209231092300922f0922e0922d0922c0922b0922a0922909228092270922609225092240922309222,
  0x09251092500924f0924e0924d0924c0924b0924a092490924809247092460924509244092430924209241092400923f0923e0923d0923c0923b0923a,
  0x092690926809267092660926509264092630926209261092600925f0925e0925d0925c0925b0925a0925909258092570925609255092540925309252,
  0x09281092800927f0927e0927d0927c0927b0927a092790927809277092760927509274092730927209271092700926f0926e0926d0926c0926b0926a,
  0x092990929809297092960929509294092930929209291092900928f0928e0928d0928c0928b0928a0928909288092870928609285092840928309282,
  0x092b1092b0092af092ae092ad092ac092ab092aa092a9092a8092a7092a6092a5092a4092a3092a2092a1092a00929f0929e0929d0929c0929b0929a,
  0x092c9092c8092c7092c6092c5092c4092c3092c2092c1092c0092bf092be092bd092bc092bb092ba092b9092b8092b7092b6092b5092b4092b3092b2,
  0x092e1092e0092df092de092dd092dc092db092da092d9092d8092d7092d6092d5092d4092d3092d2092d1092d0092cf092ce092cd092cc092cb092ca,
  0x092f9092f8092f7092f6092f5092f4092f3092f2092f1092f0092ef092ee092ed092ec092eb092ea092e9092e8092e7092e6092e5092e4092e3092e2,
  0x09311093100930f0930e0930d0930c0930b0930a09309093080930709306093050930409303093020930109300092ff092fe092fd092fc092fb092fa,
  0x093290932809327093260932509324093230932209321093200931f0931e0931d0931c0931b0931a0931909318093170931609315093140931309312,
  0x09341093400933f0933e0933d0933c0933b0933a093390933809337093360933509334093330933209331093300932f0932e0932d0932c0932b0932a,
  0x093590935809357093560935509354093530935209351093500934f0934e0934d0934c0934b0934a0934909348093470934609345093440934309342,
  0x09371093700936f0936e0936d0936c0936b0936a093690936809367093660936509364093630936209361093600935f0935e0935d0935c0935b0935a,
  0x093890938809387093860938509384093830938209381093800937f0937e0937d0937c0937b0937a0937909378093770937609375093740937309372,
  0x093a1093a00939f0939e0939d0939c0939b0939a093990939809397093960939509394093930939209391093900938f0938e0938d0938c0938b0938a,
  0x093b9093b8093b7093b6093b5093b4093b3093b2093b1093b0093af093ae093ad093ac093ab093aa093a9093a8093a7093a6093a5093a4093a3093a2,
  0x093d1093d0093cf093ce093cd093cc093cb093ca093c9093c8093c7093c6093c5093c4093c3093c2093c1093c0093bf093be093bd093bc093bb093ba,
  0x093e9093e8093e7093e6093e5093e4093e3093e2093e1093e0093df093de093dd093dc093db093da093d9093d8093d7093d6093d5093d4093d3093d2,
  0x0940109400093ff093fe093fd093fc093fb093fa093f9093f8093f7093f6093f5093f4093f3093f2093f1093f0093ef093ee093ed093ec093eb093ea,
  0x094190941809417094160941509414094130941209411094100940f0940e0940d0940c0940b0940a0940909408094070940609405094040940309402,
  0x09431094300942f0942e0942d0942c0942b0942a094290942809427094260942509424094230942209421094200941f0941e0941d0941c0941b0941a,
  0x094490944809447094460944509444094430944209441094400943f0943e0943d0943c0943b0943a0943909438094370943609435094340943309432,
  0x09461094600945f0945e0945d0945c0945b0945a094590945809457094560945509454094530945209451094500944f0944e0944d0944c0944b0944a,
  0x094790947809477094760947509474094730947209471094700946f0946e0946d0946c0946b0946a0946909468094670946609465094640946309462,
  0x09491094900948f0948e0948d0948c0948b0948a094890948809487094860948509484094830948209481094800947f0947e0947d0947c0947b0947a,
  0x094a9094a8094a7094a6094a5094a4094a3094a2094a1094a00949f0949e0949d0949c0949b0949a0949909498094970949609495094940949309492,
  0x094c1094c0094bf094be094bd094bc094bb094ba094b9094b8094b7094b6094b5094b4094b3094b2094b1094b0094af094ae094ad094ac094ab094aa,
  0x094d9094d8094d7094d6094d5094d4094d3094d2094d1094d0094cf094ce094cd094cc094cb094ca094c9094c8094c7094c6094c5094c4094c3094c2,
  0x094f1094f0094ef094ee094ed094ec094eb094ea094e9094e8094e7094e6094e5094e4094e3094e2094e1094e0094df094de094dd094dc094db094da,
  0x09509095080950709506095050950409503095020950109500094ff094fe094fd094fc094fb094fa094f9094f8094f7094f6094f5094f4094f3094f2,
  0x09521095200951f0951e0951d0951c0951b0951a095190951809517095160951509514095130951209511095100950f0950e0950d0950c0950b0950a,
  0x095390953809537095360953509534095330953209531095300952f0952e0952d0952c0952b0952a0952909528095270952609525095240952309522,
  0x09551095500954f0954e0954d0954c0954b0954a095490954809547095460954509544095430954209541095400953f0953e0953d0953c0953b0953a,
  0x095690956809567095660956509564095630956209561095600955f0955e0955d0955c0955b0955a0955909558095570955609555095540955309552,
  0x09581095800957f0957e0957d0957c0957b0957a095790957809577095760957509574095730957209571095700956f0956e0956d0956c0956b0956a,
  0x095990959809597095960959509594095930959209591095900958f0958e0958d0958c0958b0958a0958909588095870958609585095840958309582,
  0x095b1095b0095af095ae095ad095ac095ab095aa095a9095a8095a7095a6095a5095a4095a3095a2095a1095a00959f0959e0959d0959c0959b0959a,
  0x095c9095c8095c7095c6095c5095c4095c3095c2095c1095c0095bf095be095bd095bc095bb095ba095b9095b8095b7095b6095b5095b4095b3095b2,
  0x095e1095e0095df095de095dd095dc095db095da095d9095d8095d7095d6095d5095d4095d3095d2095d1095d0095cf095ce095cd095cc095cb095ca,
  0x095f9095f8095f7095f6095f5095f4095f3095f2095f1095f0095ef095ee095ed095ec095eb095ea095e9095e8095e7095e6095e5095e4095e3095e2,
  0x09611096100960f0960e0960d0960c0960b0960a09609096080960709606096050960409603096020960109600095ff095fe095fd095fc095fb095fa,
  0x096290962809627096260962509624096230962209621096200961f0961e0961d0961c0961b0961a0961909618096170961609615096140961309612,
  0x09641096400963f0963e0963d0963c0963b0963a096390963809637096360963509634096330963209631096300962f0962e0962d0962c0962b0962a,
  0x096590965809657096560965509654096530965209651096500964f0964e0964d0964c0964b0964a0964909648096470964609645096440964309642,
  0x09671096700966f0966e0966d0966c0966b0966a096690966809667096660966509664096630966209661096600965f0965e0965d0965c0965b0965a,
  0x096890968809687096860968509684096830968209681096800967f0967e0967d0967c0967b0967a0967909678096770967609675096740967309672,
  0x096a1096a00969f0969e0969d0969c0969b0969a096990969809697096960969509694096930969209691096900968f0968e0968d0968c0968b0968a,
  0x096b9096b8096b7096b6096b5096b4096b3096b2096b1096b0096af096ae096ad096ac096ab096aa096a9096a8096a7096a6096a5096a4096a3096a2,
  0x096d1096d0096cf096ce096cd096cc096cb096ca096c9096c8096c7096c6096c5096c4096c3096c2096c1096c0096bf096be096bd096bc096bb096ba,
  0x096e9096e8096e7096e6096e5096e4096e3096e2096e1096e0096df096de096dd096dc096db096da096d9096d8096d7096d6096d5096d4096d3096d2,
  0x0970109700096ff096fe096fd096fc096fb096fa096f9096f8096f7096f6096f5096f4096f3096f2096f1096f0096ef096ee096ed096ec096eb096ea,
  0x097190971809717097160971509714097130971209711097100970f0970e0970d0970c0970b0970a0970909708097070970609705097040970309702,
  0x09731097300972f0972e0972d0972c0972b0972a097290972809727097260972509724097230972209721097200971f0971e0971d0971c0971b0971a,
  0x097490974809747097460974509744097430974209741097400973f0973e0973d0973c0973b0973a0973909738097370973609735097340973309732,
  0x09761097600975f0975e0975d0975c0975b0975a097590975809757097560975509754097530975209751097500974f0974e0974d0974c0974b0974a,
  0x097790977809777097760977509774097730977209771097700976f0976e0976d0976c0976b0976a0976909768097670976609765097640976309762,
  0x09791097900978f0978e0978d0978c0978b0978a097890978809787097860978509784097830978209781097800977f0977e0977d0977c0977b0977a,
  0x097a9097a8097a7097a6097a5097a4097a3097a2097a1097a00979f0979e0979d0979c0979b0979a0979909798097970979609795097940979309792,
  0x097c1097c0097bf097be097bd097bc097bb097ba097b9097b8097b7097b6097b5097b4097b3097b2097b1097b0097af097ae097ad097ac097ab097aa,
  0x097d9097d8097d7097d6097d5097d4097d3097d2097d1097d0097cf097ce097cd097cc097cb097ca097c9097c8097c7097c6097c5097c4097c3097c2,
  0x097f1097f0097ef097ee097ed097ec097eb097ea097e9097e8097e7097e6097e5097e4097e3097e2097e1097e0097df097de097dd097dc097db097da,
  0x09809098080980709806098050980409803098020980109800097ff097fe097fd097fc097fb097fa097f9097f8097f7097f6097f5097f4097f3097f2,
  0x09821098200981f0981e0981d0981c0981b0981a098190981809817098160981509814098130981209811098100980f0980e0980d0980c0980b0980a,
  0x098390983809837098360983509834098330983209831098300982f0982e0982d0982c0982b0982a0982909828098270982609825098240982309822,
  0x09851098500984f0984e0984d0984c0984b0984a098490984809847098460984509844098430984209841098400983f0983e0983d0983c0983b0983a,
  0x098690986809867098660986509864098630986209861098600985f0985e0985d0985c0985b0985a0985909858098570985609855098540985309852,
  0x09881098800987f0987e0987d0987c0987b0987a098790987809877098760987509874098730987209871098700986f0986e0986d0986c0986b0986a,
  0x098990989809897098960989509894098930989209891098900988f0988e0988d0988c0988b0988a0988909888098870988609885098840988309882,
  0x098b1098b0098af098ae098ad098ac098ab098aa098a9098a8098a7098a6098a5098a4098a3098a2098a1098a00989f0989e0989d0989c0989b0989a,
  0x098c9098c8098c7098c6098c5098c4098c3098c2098c1098c0098bf098be098bd098bc098bb098ba098b9098b8098b7098b6098b5098b4098b3098b2,
  0x098e1098e0098df098de098dd098dc098db098da098d9098d8098d7098d6098d5098d4098d3098d2098d1098d0098cf098ce098cd098cc098cb098ca,
  0x098f9098f8098f7098f6098f5098f4098f3098f2098f1098f0098ef098ee098ed098ec098eb098ea098e9098e8098e7098e6098e5098e4098e3098e2,
  0x09911099100990f0990e0990d0990c0990b0990a09909099080990709906099050990409903099020990109900098ff098fe098fd098fc098fb098fa,
  0x099290992809927099260992509924099230992209921099200991f0991e0991d0991c0991b0991a0991909918099170991609915099140991309912,
  0x09941099400993f0993e0993d0993c0993b0993a099390993809937099360993509934099330993209931099300992f0992e0992d0992c0992b0992a,
  0x099590995809957099560995509954099530995209951099500994f0994e0994d0994c0994b0994a0994909948099470994609945099440994309942,
  0x09971099700996f0996e0996d0996c0996b0996a099690996809967099660996509964099630996209961099600995f0995e0995d0995c0995b0995a,
  0x099890998809987099860998509984099830998209981099800997f0997e0997d0997c0997b0997a0997909978099770997609975099740997309972,
  0x099a1099a00999f0999e0999d0999c0999b0999a099990999809997099960999509994099930999209991099900998f0998e0998d0998c0998b0998a,
  0x099b9099b8099b7099b6099b5099b4099b3099b2099b1099b0099af099ae099ad099ac099ab099aa099a9099a8099a7099a6099a5099a4099a3099a2,
  0x099d1099d0099cf099ce099cd099cc099cb099ca099c9099c8099c7099c6099c5099c4099c3099c2099c1099c0099bf099be099bd099bc099bb099ba,
  0x099e9099e8099e7099e6099e5099e4099e3099e2099e1099e0099df099de099dd099dc099db099da099d9099d8099d7099d6099d5099d4099d3099d2,
  0x09a0109a00099ff099fe099fd099fc099fb099fa099f9099f8099f7099f6099f5099f4099f3099f2099f1099f0099ef099ee099ed099ec099eb099ea,
  0x09a1909a1809a1709a1609a1509a1409a1309a1209a1109a1009a0f09a0e09a0d09a0c09a0b09a0a09a0909a0809a0709a0609a0509a0409a0309a02,
  0x09a3109a3009a2f09a2e09a2d09a2c09a2b09a2a09a2909a2809a2709a2609a2509a2409a2309a2209a2109a2009a1f09a1e09a1d09a1c09a1b09a1a,
  0x09a4909a4809a4709a4609a4509a4409a4309a4209a4109a4009a3f09a3e09a3d09a3c09a3b09a3a09a3909a3809a3709a3609a3509a3409a3309a32,
  0x09a6109a6009a5f09a5e09a5d09a5c09a5b09a5a09a5909a5809a5709a5609a5509a5409a5309a5209a5109a5009a4f09a4e09a4d09a4c09a4b09a4a,
  0x09a7909a7809a7709a7609a7509a7409a7309a7209a7109a7009a6f09a6e09a6d09a6c09a6b09a6a09a6909a6809a6709a6609a6509a6409a6309a62,
  0x09a9109a9009a8f09a8e09a8d09a8c09a8b09a8a09a8909a8809a8709a8609a8509a8409a8309a8209a8109a8009a7f09a7e09a7d09a7c09a7b09a7a,
  0x09aa909aa809aa709aa609aa509aa409aa309aa209aa109aa009a9f09a9e09a9d09a9c09a9b09a9a09a9909a9809a9709a9609a9509a9409a9309a92,
  0x09ac109ac009abf09abe09abd09abc09abb09aba09ab909ab809ab709ab609ab509ab409ab309ab209ab109ab009aaf09aae09aad09aac09aab09aaa,
  0x09ad909ad809ad709ad609ad509ad409ad309ad209ad109ad009acf09ace09acd09acc09acb09aca09ac909ac809ac709ac609ac509ac409ac309ac2,
  0x09af109af009aef09aee09aed09aec09aeb09aea09ae909ae809ae709ae609ae509ae409ae309ae209ae109ae009adf09ade09add09adc09adb09ada,
  0x09b0909b0809b0709b0609b0509b0409b0309b0209b0109b0009aff09afe09afd09afc09afb09afa09af909af809af709af609af509af409af309af2,
  0x09b2109b2009b1f09b1e09b1d09b1c09b1b09b1a09b1909b1809b1709b1609b1509b1409b1309b1209b1109b1009b0f09b0e09b0d09b0c09b0b09b0a,
  0x09b3909b3809b3709b3609b3509b3409b3309b3209b3109b3009b2f09b2e09b2d09b2c09b2b09b2a09b2909b2809b2709b2609b2509b2409b2309b22,
  0x09b5109b5009b4f09b4e09b4d09b4c09b4b09b4a09b4909b4809b4709b4609b4509b4409b4309b4209b4109b4009b3f09b3e09b3d09b3c09b3b09b3a,
  0x09b6909b6809b6709b6609b6509b6409b6309b6209b6109b6009b5f09b5e09b5d09b5c09b5b09b5a09b5909b5809b5709b5609b5509b5409b5309b52,
  0x09b8109b8009b7f09b7e09b7d09b7c09b7b09b7a09b7909b7809b7709b7609b7509b7409b7309b7209b7109b7009b6f09b6e09b6d09b6c09b6b09b6a,
  0x09b9909b9809b9709b9609b9509b9409b9309b9209b9109b9009b8f09b8e09b8d09b8c09b8b09b8a09b8909b8809b8709b8609b8509b8409b8309b82,
  0x09bb109bb009baf09bae09bad09bac09bab09baa09ba909ba809ba709ba609ba509ba409ba309ba209ba109ba009b9f09b9e09b9d09b9c09b9b09b9a,
  0x09bc909bc809bc709bc609bc509bc409bc309bc209bc109bc009bbf09bbe09bbd09bbc09bbb09bba09bb909bb809bb709bb609bb509bb409bb309bb2,
  0x09be109be009bdf09bde09bdd09bdc09bdb09bda09bd909bd809bd709bd609bd509bd409bd309bd209bd109bd009bcf09bce09bcd09bcc09bcb09bca,
  0x09bf909bf809bf709bf609bf509bf409bf309bf209bf109bf009bef09bee09bed09bec09beb09bea09be909be809be709be609be509be409be309be2,
  0x09c1109c1009c0f09c0e09c0d09c0c09c0b09c0a09c0909c0809c0709c0609c0509c0409c0309c0209c0109c0009bff09bfe09bfd09bfc09bfb09bfa,
  0x09c2909c2809c2709c2609c2509c2409c2309c2209c2109c2009c1f09c1e09c1d09c1c09c1b09c1a09c1909c1809c1709c1609c1509c1409c1309c12,
  0x09c4109c4009c3f09c3e09c3d09c3c09c3b09c3a09c3909c3809c3709c3609c3509c3409c3309c3209c3109c3009c2f09c2e09c2d09c2c09c2b09c2a,
  0x09c5909c5809c5709c5609c5509c5409c5309c5209c5109c5009c4f09c4e09c4d09c4c09c4b09c4a09c4909c4809c4709c4609c4509c4409c4309c42,
  0x09c7109c7009c6f09c6e09c6d09c6c09c6b09c6a09c6909c6809c6709c6609c6509c6409c6309c6209c6109c6009c5f09c5e09c5d09c5c09c5b09c5a,
  0x09c8909c8809c8709c8609c8509c8409c8309c8209c8109c8009c7f09c7e09c7d09c7c09c7b09c7a09c7909c7809c7709c7609c7509c7409c7309c72,
  0x09ca109ca009c9f09c9e09c9d09c9c09c9b09c9a09c9909c9809c9709c9609c9509c9409c9309c9209c9109c9009c8f09c8e09c8d09c8c09c8b09c8a,
  0x09cb909cb809cb709cb609cb509cb409cb309cb209cb109cb009caf09cae09cad09cac09cab09caa09ca909ca809ca709ca609ca509ca409ca309ca2,
  0x09cd109cd009ccf09cce09ccd09ccc09ccb09cca09cc909cc809cc709cc609cc509cc409cc309cc209cc109cc009cbf09cbe09cbd09cbc09cbb09cba,
  0x09ce909ce809ce709ce609ce509ce409ce309ce209ce109ce009cdf09cde09cdd09cdc09cdb09cda09cd909cd809cd709cd609cd509cd409cd309cd2,
  0x09d0109d0009cff09cfe09cfd09cfc09cfb09cfa09cf909cf809cf709cf609cf509cf409cf309cf209cf109cf009cef09cee09ced09cec09ceb09cea,
  0x09d1909d1809d1709d1609d1509d1409d1309d1209d1109d1009d0f09d0e09d0d09d0c09d0b09d0a09d0909d0809d0709d0609d0509d0409d0309d02,
  0x09d3109d3009d2f09d2e09d2d09d2c09d2b09d2a09d2909d2809d2709d2609d2509d2409d2309d2209d2109d2009d1f09d1e09d1d09d1c09d1b09d1a,
  0x09d4909d4809d4709d4609d4509d4409d4309d4209d4109d4009d3f09d3e09d3d09d3c09d3b09d3a09d3909d3809d3709d3609d3509d3409d3309d32,
  0x09d6109d6009d5f09d5e09d5d09d5c09d5b09d5a09d5909d5809d5709d5609d5509d5409d5309d5209d5109d5009d4f09d4e09d4d09d4c09d4b09d4a,
  0x09d7909d7809d7709d7609d7509d7409d7309d7209d7109d7009d6f09d6e09d6d09d6c09d6b09d6a09d6909d6809d6709d6609d6509d6409d6309d62,
  0x09d9109d9009d8f09d8e09d8d09d8c09d8b09d8a09d8909d8809d8709d8609d8509d8409d8309d8209d8109d8009d7f09d7e09d7d09d7c09d7b09d7a,
  0x09da909da809da709da609da509da409da309da209da109da009d9f09d9e09d9d09d9c09d9b09d9a09d9909d9809d9709d9609d9509d9409d9309d92,
  0x09dc109dc009dbf09dbe09dbd09dbc09dbb09dba09db909db809db709db609db509db409db309db209db109db009daf09dae09dad09dac09dab09daa,
  0x09dd909dd809dd709dd609dd509dd409dd309dd209dd109dd009dcf09dce09dcd09dcc09dcb09dca09dc909dc809dc709dc609dc509dc409dc309dc2,
  0x09df109df009def09dee09ded09dec09deb09dea09de909de809de709de609de509de409de309de209de109de009ddf09dde09ddd09ddc09ddb09dda,
  0x09e0909e0809e0709e0609e0509e0409e0309e0209e0109e0009dff09dfe09dfd09dfc09dfb09dfa09df909df809df709df609df509df409df309df2,
  0x09e2109e2009e1f09e1e09e1d09e1c09e1b09e1a09e1909e1809e1709e1609e1509e1409e1309e1209e1109e1009e0f09e0e09e0d09e0c09e0b09e0a,
  0x09e3909e3809e3709e3609e3509e3409e3309e3209e3109e3009e2f09e2e09e2d09e2c09e2b09e2a09e2909e2809e2709e2609e2509e2409e2309e22,
  0x09e5109e5009e4f09e4e09e4d09e4c09e4b09e4a09e4909e4809e4709e4609e4509e4409e4309e4209e4109e4009e3f09e3e09e3d09e3c09e3b09e3a,
  0x09e6909e6809e6709e6609e6509e6409e6309e6209e6109e6009e5f09e5e09e5d09e5c09e5b09e5a09e5909e5809e5709e5609e5509e5409e5309e52,
  0x09e8109e8009e7f09e7e09e7d09e7c09e7b09e7a09e7909e7809e7709e7609e7509e7409e7309e7209e7109e7009e6f09e6e09e6d09e6c09e6b09e6a,
  0x09e9909e9809e9709e9609e9509e9409e9309e9209e9109e9009e8f09e8e09e8d09e8c09e8b09e8a09e8909e8809e8709e8609e8509e8409e8309e82,
  0x09eb109eb009eaf09eae09ead09eac09eab09eaa09ea909ea809ea709ea609ea509ea409ea309ea209ea109ea009e9f09e9e09e9d09e9c09e9b09e9a,
  0x09ec909ec809ec709ec609ec509ec409ec309ec209ec109ec009ebf09ebe09ebd09ebc09ebb09eba09eb909eb809eb709eb609eb509eb409eb309eb2,
  0x09ee109ee009edf09ede09edd09edc09edb09eda09ed909ed809ed709ed609ed509ed409ed309ed209ed109ed009ecf09ece09ecd09ecc09ecb09eca,
  0x09ef909ef809ef709ef609ef509ef409ef309ef209ef109ef009eef09eee09eed09eec09eeb09eea09ee909ee809ee709ee609ee509ee409ee309ee2,
  0x09f1109f1009f0f09f0e09f0d09f0c09f0b09f0a09f0909f0809f0709f0609f0509f0409f0309f0209f0109f0009eff09efe09efd09efc09efb09efa,
  0x09f2909f2809f2709f2609f2509f2409f2309f2209f2109f2009f1f09f1e09f1d09f1c09f1b09f1a09f1909f1809f1709f1609f1509f1409f1309f12,
  0x09f4109f4009f3f09f3e09f3d09f3c09f3b09f3a09f3909f3809f3709f3609f3509f3409f3309f3209f3109f3009f2f09f2e09f2d09f2c09f2b09f2a,
  0x09f5909f5809f5709f5609f5509f5409f5309f5209f5109f5009f4f09f4e09f4d09f4c09f4b09f4a09f4909f4809f4709f4609f4509f4409f4309f42,
  0x09f7109f7009f6f09f6e09f6d09f6c09f6b09f6a09f6909f6809f6709f6609f6509f6409f6309f6209f6109f6009f5f09f5e09f5d09f5c09f5b09f5a,
  0x09f8909f8809f8709f8609f8509f8409f8309f8209f8109f8009f7f09f7e09f7d09f7c09f7b09f7a09f7909f7809f7709f7609f7509f7409f7309f72,
  0x09fa109fa009f9f09f9e09f9d09f9c09f9b09f9a09f9909f9809f9709f9609f9509f9409f9309f9209f9109f9009f8f09f8e09f8d09f8c09f8b09f8a,
  0x0e0130e0120e0110e0100e00f0e00e0e00d0e00c0e00b0e00a0e0090e0080e0070e0060e0050e0040e0030e0020e0010e00009fa509fa409fa309fa2,
  0x0e02b0e02a0e0290e0280e0270e0260e0250e0240e0230e0220e0210e0200e01f0e01e0e01d0e01c0e01b0e01a0e0190e0180e0170e0160e0150e014,
  0x0e0430e0420e0410e0400e03f0e03e0e03d0e03c0e03b0e03a0e0390e0380e0370e0360e0350e0340e0330e0320e0310e0300e02f0e02e0e02d0e02c,
  0x0e05b0e05a0e0590e0580e0570e0560e0550e0540e0530e0520e0510e0500e04f0e04e0e04d0e04c0e04b0e04a0e0490e0480e0470e0460e0450e044,
  0x0e0730e0720e0710e0700e06f0e06e0e06d0e06c0e06b0e06a0e0690e0680e0670e0660e0650e0640e0630e0620e0610e0600e05f0e05e0e05d0e05c,
  0x0e08b0e08a0e0890e0880e0870e0860e0850e0840e0830e0820e0810e0800e07f0e07e0e07d0e07c0e07b0e07a0e0790e0780e0770e0760e0750e074,
  0x0e0a30e0a20e0a10e0a00e09f0e09e0e09d0e09c0e09b0e09a0e0990e0980e0970e0960e0950e0940e0930e0920e0910e0900e08f0e08e0e08d0e08c,
  0x0e0bb0e0ba0e0b90e0b80e0b70e0b60e0b50e0b40e0b30e0b20e0b10e0b00e0af0e0ae0e0ad0e0ac0e0ab0e0aa0e0a90e0a80e0a70e0a60e0a50e0a4,
  0x0e0d30e0d20e0d10e0d00e0cf0e0ce0e0cd0e0cc0e0cb0e0ca0e0c90e0c80e0c70e0c60e0c50e0c40e0c30e0c20e0c10e0c00e0bf0e0be0e0bd0e0bc,
  0x0e0eb0e0ea0e0e90e0e80e0e70e0e60e0e50e0e40e0e30e0e20e0e10e0e00e0df0e0de0e0dd0e0dc0e0db0e0da0e0d90e0d80e0d70e0d60e0d50e0d4,
  0x0e1030e1020e1010e1000e0ff0e0fe0e0fd0e0fc0e0fb0e0fa0e0f90e0f80e0f70e0f60e0f50e0f40e0f30e0f20e0f10e0f00e0ef0e0ee0e0ed0e0ec,
  0x0e11b0e11a0e1190e1180e1170e1160e1150e1140e1130e1120e1110e1100e10f0e10e0e10d0e10c0e10b0e10a0e1090e1080e1070e1060e1050e104,
  0x0e1330e1320e1310e1300e12f0e12e0e12d0e12c0e12b0e12a0e1290e1280e1270e1260e1250e1240e1230e1220e1210e1200e11f0e11e0e11d0e11c,
  0x0e14b0e14a0e1490e1480e1470e1460e1450e1440e1430e1420e1410e1400e13f0e13e0e13d0e13c0e13b0e13a0e1390e1380e1370e1360e1350e134,
  0x0e1630e1620e1610e1600e15f0e15e0e15d0e15c0e15b0e15a0e1590e1580e1570e1560e1550e1540e1530e1520e1510e1500e14f0e14e0e14d0e14c,
  0x0e17b0e17a0e1790e1780e1770e1760e1750e1740e1730e1720e1710e1700e16f0e16e0e16d0e16c0e16b0e16a0e1690e1680e1670e1660e1650e164,
  0x0e1930e1920e1910e1900e18f0e18e0e18d0e18c0e18b0e18a0e1890e1880e1870e1860e1850e1840e1830e1820e1810e1800e17f0e17e0e17d0e17c,
  0x0e1ab0e1aa0e1a90e1a80e1a70e1a60e1a50e1a40e1a30e1a20e1a10e1a00e19f0e19e0e19d0e19c0e19b0e19a0e1990e1980e1970e1960e1950e194,
  0x0e1c30e1c20e1c10e1c00e1bf0e1be0e1bd0e1bc0e1bb0e1ba0e1b90e1b80e1b70e1b60e1b50e1b40e1b30e1b20e1b10e1b00e1af0e1ae0e1ad0e1ac,
  0x0e1db0e1da0e1d90e1d80e1d70e1d60e1d50e1d40e1d30e1d20e1d10e1d00e1cf0e1ce0e1cd0e1cc0e1cb0e1ca0e1c90e1c80e1c70e1c60e1c50e1c4,
  0x0e1f30e1f20e1f10e1f00e1ef0e1ee0e1ed0e1ec0e1eb0e1ea0e1e90e1e80e1e70e1e60e1e50e1e40e1e30e1e20e1e10e1e00e1df0e1de0e1dd0e1dc,
  0x0e20b0e20a0e2090e2080e2070e2060e2050e2040e2030e2020e2010e2000e1ff0e1fe0e1fd0e1fc0e1fb0e1fa0e1f90e1f80e1f70e1f60e1f50e1f4,
  0x0e2230e2220e2210e2200e21f0e21e0e21d0e21c0e21b0e21a0e2190e2180e2170e2160e2150e2140e2130e2120e2110e2100e20f0e20e0e20d0e20c,
  0x0e23b0e23a0e2390e2380e2370e2360e2350e2340e2330e2320e2310e2300e22f0e22e0e22d0e22c0e22b0e22a0e2290e2280e2270e2260e2250e224,
  0x0e2530e2520e2510e2500e24f0e24e0e24d0e24c0e24b0e24a0e2490e2480e2470e2460e2450e2440e2430e2420e2410e2400e23f0e23e0e23d0e23c,
  0x0e26b0e26a0e2690e2680e2670e2660e2650e2640e2630e2620e2610e2600e25f0e25e0e25d0e25c0e25b0e25a0e2590e2580e2570e2560e2550e254,
  0x0e2830e2820e2810e2800e27f0e27e0e27d0e27c0e27b0e27a0e2790e2780e2770e2760e2750e2740e2730e2720e2710e2700e26f0e26e0e26d0e26c,
  0x0e29b0e29a0e2990e2980e2970e2960e2950e2940e2930e2920e2910e2900e28f0e28e0e28d0e28c0e28b0e28a0e2890e2880e2870e2860e2850e284,
  0x0e2b30e2b20e2b10e2b00e2af0e2ae0e2ad0e2ac0e2ab0e2aa0e2a90e2a80e2a70e2a60e2a50e2a40e2a30e2a20e2a10e2a00e29f0e29e0e29d0e29c,
  0x0e2cb0e2ca0e2c90e2c80e2c70e2c60e2c50e2c40e2c30e2c20e2c10e2c00e2bf0e2be0e2bd0e2bc0e2bb0e2ba0e2b90e2b80e2b70e2b60e2b50e2b4,
  0x0e2e30e2e20e2e10e2e00e2df0e2de0e2dd0e2dc0e2db0e2da0e2d90e2d80e2d70e2d60e2d50e2d40e2d30e2d20e2d10e2d00e2cf0e2ce0e2cd0e2cc,
  0x0e2fb0e2fa0e2f90e2f80e2f70e2f60e2f50e2f40e2f30e2f20e2f10e2f00e2ef0e2ee0e2ed0e2ec0e2eb0e2ea0e2e90e2e80e2e70e2e60e2e50e2e4,
  0x0e3130e3120e3110e3100e30f0e30e0e30d0e30c0e30b0e30a0e3090e3080e3070e3060e3050e3040e3030e3020e3010e3000e2ff0e2fe0e2fd0e2fc,
  0x0e32b0e32a0e3290e3280e3270e3260e3250e3240e3230e3220e3210e3200e31f0e31e0e31d0e31c0e31b0e31a0e3190e3180e3170e3160e3150e314,
  0x0e3430e3420e3410e3400e33f0e33e0e33d0e33c0e33b0e33a0e3390e3380e3370e3360e3350e3340e3330e3320e3310e3300e32f0e32e0e32d0e32c,
  0x0e35b0e35a0e3590e3580e3570e3560e3550e3540e3530e3520e3510e3500e34f0e34e0e34d0e34c0e34b0e34a0e3490e3480e3470e3460e3450e344,
  0x0e3730e3720e3710e3700e36f0e36e0e36d0e36c0e36b0e36a0e3690e3680e3670e3660e3650e3640e3630e3620e3610e3600e35f0e35e0e35d0e35c,
  0x0e38b0e38a0e3890e3880e3870e3860e3850e3840e3830e3820e3810e3800e37f0e37e0e37d0e37c0e37b0e37a0e3790e3780e3770e3760e3750e374,
  0x0e3a30e3a20e3a10e3a00e39f0e39e0e39d0e39c0e39b0e39a0e3990e3980e3970e3960e3950e3940e3930e3920e3910e3900e38f0e38e0e38d0e38c,
  0x0e3bb0e3ba0e3b90e3b80e3b70e3b60e3b50e3b40e3b30e3b20e3b10e3b00e3af0e3ae0e3ad0e3ac0e3ab0e3aa0e3a90e3a80e3a70e3a60e3a50e3a4,
  0x0e3d30e3d20e3d10e3d00e3cf0e3ce0e3cd0e3cc0e3cb0e3ca0e3c90e3c80e3c70e3c60e3c50e3c40e3c30e3c20e3c10e3c00e3bf0e3be0e3bd0e3bc,
  0x0e3eb0e3ea0e3e90e3e80e3e70e3e60e3e50e3e40e3e30e3e20e3e10e3e00e3df0e3de0e3dd0e3dc0e3db0e3da0e3d90e3d80e3d70e3d60e3d50e3d4,
  0x0e4030e4020e4010e4000e3ff0e3fe0e3fd0e3fc0e3fb0e3fa0e3f90e3f80e3f70e3f60e3f50e3f40e3f30e3f20e3f10e3f00e3ef0e3ee0e3ed0e3ec,
  0x0e41b0e41a0e4190e4180e4170e4160e4150e4140e4130e4120e4110e4100e40f0e40e0e40d0e40c0e40b0e40a0e4090e4080e4070e4060e4050e404,
  0x0e4330e4320e4310e4300e42f0e42e0e42d0e42c0e42b0e42a0e4290e4280e4270e4260e4250e4240e4230e4220e4210e4200e41f0e41e0e41d0e41c,
  0x0e44b0e44a0e4490e4480e4470e4460e4450e4440e4430e4420e4410e4400e43f0e43e0e43d0e43c0e43b0e43a0e4390e4380e4370e4360e4350e434,
  0x0e4630e4620e4610e4600e45f0e45e0e45d0e45c0e45b0e45a0e4590e4580e4570e4560e4550e4540e4530e4520e4510e4500e44f0e44e0e44d0e44c,
  0x0e47b0e47a0e4790e4780e4770e4760e4750e4740e4730e4720e4710e4700e46f0e46e0e46d0e46c0e46b0e46a0e4690e4680e4670e4660e4650e464,
  0x0e4930e4920e4910e4900e48f0e48e0e48d0e48c0e48b0e48a0e4890e4880e4870e4860e4850e4840e4830e4820e4810e4800e47f0e47e0e47d0e47c,
  0x0e4ab0e4aa0e4a90e4a80e4a70e4a60e4a50e4a40e4a30e4a20e4a10e4a00e49f0e49e0e49d0e49c0e49b0e49a0e4990e4980e4970e4960e4950e494,
  0x0e4c30e4c20e4c10e4c00e4bf0e4be0e4bd0e4bc0e4bb0e4ba0e4b90e4b80e4b70e4b60e4b50e4b40e4b30e4b20e4b10e4b00e4af0e4ae0e4ad0e4ac,
  0x0e4db0e4da0e4d90e4d80e4d70e4d60e4d50e4d40e4d30e4d20e4d10e4d00e4cf0e4ce0e4cd0e4cc0e4cb0e4ca0e4c90e4c80e4c70e4c60e4c50e4c4,
  0x0e4f30e4f20e4f10e4f00e4ef0e4ee0e4ed0e4ec0e4eb0e4ea0e4e90e4e80e4e70e4e60e4e50e4e40e4e30e4e20e4e10e4e00e4df0e4de0e4dd0e4dc,
  0x0e50b0e50a0e5090e5080e5070e5060e5050e5040e5030e5020e5010e5000e4ff0e4fe0e4fd0e4fc0e4fb0e4fa0e4f90e4f80e4f70e4f60e4f50e4f4,
  0x0e5230e5220e5210e5200e51f0e51e0e51d0e51c0e51b0e51a0e5190e5180e5170e5160e5150e5140e5130e5120e5110e5100e50f0e50e0e50d0e50c,
  0x0e53b0e53a0e5390e5380e5370e5360e5350e5340e5330e5320e5310e5300e52f0e52e0e52d0e52c0e52b0e52a0e5290e5280e5270e5260e5250e524,
  0x0e5530e5520e5510e5500e54f0e54e0e54d0e54c0e54b0e54a0e5490e5480e5470e5460e5450e5440e5430e5420e5410e5400e53f0e53e0e53d0e53c,
  0x0e56b0e56a0e5690e5680e5670e5660e5650e5640e5630e5620e5610e5600e55f0e55e0e55d0e55c0e55b0e55a0e5590e5580e5570e5560e5550e554,
  0x0e5830e5820e5810e5800e57f0e57e0e57d0e57c0e57b0e57a0e5790e5780e5770e5760e5750e5740e5730e5720e5710e5700e56f0e56e0e56d0e56c,
  0x0e59b0e59a0e5990e5980e5970e5960e5950e5940e5930e5920e5910e5900e58f0e58e0e58d0e58c0e58b0e58a0e5890e5880e5870e5860e5850e584,
  0x0e5b30e5b20e5b10e5b00e5af0e5ae0e5ad0e5ac0e5ab0e5aa0e5a90e5a80e5a70e5a60e5a50e5a40e5a30e5a20e5a10e5a00e59f0e59e0e59d0e59c,
  0x0e5cb0e5ca0e5c90e5c80e5c70e5c60e5c50e5c40e5c30e5c20e5c10e5c00e5bf0e5be0e5bd0e5bc0e5bb0e5ba0e5b90e5b80e5b70e5b60e5b50e5b4,
  0x0e5e30e5e20e5e10e5e00e5df0e5de0e5dd0e5dc0e5db0e5da0e5d90e5d80e5d70e5d60e5d50e5d40e5d30e5d20e5d10e5d00e5cf0e5ce0e5cd0e5cc,
  0x0e5fc0e5fb0e5fa0e5f90e5f80e5f70e5f60e5f50e5f40e5f30e5f20e5f10e5f00e5ef0e5ee0e5ed0e5ec0e5eb0e5ea0e5e90e5e80e5e70e5e60e5e4,
  0x0e6140e6130e6120e6110e6100e60f0e60e0e60d0e60c0e60b0e60a0e6090e6080e6070e6060e6050e6040e6030e6020e6010e6000e5ff0e5fe0e5fd,
  0x0e62c0e62b0e62a0e6290e6280e6270e6260e6250e6240e6230e6220e6210e6200e61f0e61e0e61d0e61c0e61b0e61a0e6190e6180e6170e6160e615,
  0x0e6440e6430e6420e6410e6400e63f0e63e0e63d0e63c0e63b0e63a0e6390e6380e6370e6360e6350e6340e6330e6320e6310e6300e62f0e62e0e62d,
  0x0e65c0e65b0e65a0e6590e6580e6570e6560e6550e6540e6530e6520e6510e6500e64f0e64e0e64d0e64c0e64b0e64a0e6490e6480e6470e6460e645,
  0x0e6740e6730e6720e6710e6700e66f0e66e0e66d0e66c0e66b0e66a0e6690e6680e6670e6660e6650e6640e6630e6620e6610e6600e65f0e65e0e65d,
  0x0e68c0e68b0e68a0e6890e6880e6870e6860e6850e6840e6830e6820e6810e6800e67f0e67e0e67d0e67c0e67b0e67a0e6790e6780e6770e6760e675,
  0x0e6a40e6a30e6a20e6a10e6a00e69f0e69e0e69d0e69c0e69b0e69a0e6990e6980e6970e6960e6950e6940e6930e6920e6910e6900e68f0e68e0e68d,
  0x0e6bc0e6bb0e6ba0e6b90e6b80e6b70e6b60e6b50e6b40e6b30e6b20e6b10e6b00e6af0e6ae0e6ad0e6ac0e6ab0e6aa0e6a90e6a80e6a70e6a60e6a5,
  0x0e6d40e6d30e6d20e6d10e6d00e6cf0e6ce0e6cd0e6cc0e6cb0e6ca0e6c90e6c80e6c70e6c60e6c50e6c40e6c30e6c20e6c10e6c00e6bf0e6be0e6bd,
  0x0e6ec0e6eb0e6ea0e6e90e6e80e6e70e6e60e6e50e6e40e6e30e6e20e6e10e6e00e6df0e6de0e6dd0e6dc0e6db0e6da0e6d90e6d80e6d70e6d60e6d5,
  0x0e7040e7030e7020e7010e7000e6ff0e6fe0e6fd0e6fc0e6fb0e6fa0e6f90e6f80e6f70e6f60e6f50e6f40e6f30e6f20e6f10e6f00e6ef0e6ee0e6ed,
  0x0e71c0e71b0e71a0e7190e7180e7170e7160e7150e7140e7130e7120e7110e7100e70f0e70e0e70d0e70c0e70b0e70a0e7090e7080e7070e7060e705,
  0x0e7340e7330e7320e7310e7300e72f0e72e0e72d0e72c0e72b0e72a0e7290e7280e7270e7260e7250e7240e7230e7220e7210e7200e71f0e71e0e71d,
  0x0e74c0e74b0e74a0e7490e7480e7470e7460e7450e7440e7430e7420e7410e7400e73f0e73e0e73d0e73c0e73b0e73a0e7390e7380e7370e7360e735,
  0x0e7640e7630e7620e7610e7600e75f0e75e0e75d0e75c0e75b0e75a0e7590e7580e7570e7560e7550e7540e7530e7520e7510e7500e74f0e74e0e74d,
  0x0e77d0e77c0e77b0e77a0e7790e7780e7770e7760e7750e7740e7730e7720e7710e7700e76f0e76e0e76d0e76b0e76a0e7690e7680e7670e7660e765,
  0x0e7950e7940e7930e7920e7910e7900e78f0e78e0e78d0e78c0e78b0e78a0e7890e7880e7870e7860e7850e7840e7830e7820e7810e7800e77f0e77e,
  0x0e7ad0e7ac0e7ab0e7aa0e7a90e7a80e7a70e7a60e7a50e7a40e7a30e7a20e7a10e7a00e79f0e79e0e79d0e79c0e79b0e79a0e7990e7980e7970e796,
  0x0e7c50e7c40e7c30e7c20e7c10e7c00e7bf0e7be0e7bd0e7bc0e7bb0e7ba0e7b90e7b80e7b70e7b60e7b50e7b40e7b30e7b20e7b10e7b00e7af0e7ae,
  0x0e7df0e7de0e7dd0e7dc0e7db0e7da0e7d90e7d80e7d70e7d60e7d50e7d40e7d30e7d20e7d10e7d00e7cf0e7ce0e7cd0e7cc0e7cb0e7ca0e7c90e7c6,
  0x0e8040e8030e8020e8010e8000e7ff0e7fe0e7fd0e7fc0e7fb0e7fa0e7f90e7f80e7f70e7f60e7f50e7f40e7e60e7e50e7e40e7e30e7e20e7e10e7e0,
  0x0e8310e82c0e82b0e8260e81e0e8180e8170e8160e8140e8130e8120e8110e8100e80f0e80e0e80d0e80c0e80b0e80a0e8090e8080e8070e8060e805,
  0x0fa240fa230fa210fa200fa1f0fa180fa140fa130fa110fa0f0fa0e0fa0d0fa0c0f9f10f9e70f9950f9790f92c0e8640e8550e8540e8430e83b0e832,
  0x0fe490fe440fe430fe420fe410fe400fe3f0fe3e0fe3d0fe3c0fe3b0fe3a0fe390fe380fe370fe360fe350fe340fe330fe310fe300fa290fa280fa27,
  0x0fe630fe620fe610fe600fe5f0fe5e0fe5d0fe5c0fe5b0fe5a0fe590fe570fe560fe550fe540fe520fe510fe500fe4f0fe4e0fe4d0fe4c0fe4b0fe4a,
  0x0ff110ff100ff0f0ff0e0ff0d0ff0c0ff0b0ff0a0ff090ff080ff070ff060ff050ff040ff030ff020ff010fe6b0fe6a0fe690fe680fe660fe650fe64,
  0x0ff290ff280ff270ff260ff250ff240ff230ff220ff210ff200ff1f0ff1e0ff1d0ff1c0ff1b0ff1a0ff190ff180ff170ff160ff150ff140ff130ff12,
  0x0ff410ff400ff3f0ff3e0ff3d0ff3c0ff3b0ff3a0ff390ff380ff370ff360ff350ff340ff330ff320ff310ff300ff2f0ff2e0ff2d0ff2c0ff2b0ff2a,
  0x0ff590ff580ff570ff560ff550ff540ff530ff520ff510ff500ff4f0ff4e0ff4d0ff4c0ff4b0ff4a0ff490ff480ff470ff460ff450ff440ff430ff42,
  0x0ffe50ffe40ffe30ffe20ffe10ffe00ff5e0ff5d0ff5c0ff5b0ff5a]

/-- `index_pointer_gb18030_0` (lib/whatwg/encoding/indexes_pointer.cpp:11), 23939 entries. -/
def ptr0Gb18030 : Table := ⟨20, 23939, ptr0Gb18030Data⟩

/-- Rows of `index_pointer_gb18030_1`. -/
def ptr1Gb18030Data : Nat := pack 480 [
  0x1d5c1d541d621d5e1d6f1d6e1d5a1d581d561d521d6a1d631d6518411d5f1d611d5b1d5d1d6b1d571d591d531d5518401823183f18621826186b1867,
  0x1be51be41be31be21be11be01bdf1bde1bdd1bdc1bdb1bda1bd91bd81bd71bd61cf41cf31cf2182418251d711d6c1d701d691d681d671d661d641d60,
  0x1c0b1c0a1c091c081c071c061c051c041c031c021c011c001bff1bfe1bfd1bfc1bfb1bfa1bf91bf81bf71bf61bed1bec1beb1bea1be91be81be71be6,
  0x1caf1cae1cad1cac1cab1caa1ca91ca81ca71ca61ca51ca41ca31ca21ca11ca01c9f1c9e1c9d1c9c1c9b1c991c981c971c961c951c941c9a1c0d1c0c,
  0x1cdd1cdc1cdb1cda1cd91cd81cd71cd61cd51cd41cd31cd21cd11cd01ccf1cce1ccd1ccc1ccb1cc91cc81cc71cc61cc51cc41cb41cb31cb21cb11cb0,
  0x186c1cfa1cf91865192018781cf818641863186a182c1cf71830182f182e182d182b1cf618291cf51dcc1d6d1cca1ce41ce31ce21ce11ce01cdf1cde,
  0x1cfd1cfc1cfb187c1879187b187a18e718e618e518e418e318e218e118e018df18de1939193819371936193519341933193219311930192f192e1dc9,
  0x185c185b185318581d02185418551856184a1842185e185f185218511847184818441843184d1d01184e1d00185d1857184b1cff1845184618491cfe,
  0x190c190b190a19091908190719061905190419031902191f191e191d191c191b191a1919191819171916184f1d05184c18501d43185a18591d041d03,
  0x1e131901190018ff18fe18fd18fc18fb18fa18f918f818f718f618f518f418f318f218f118f018ef18ee191519141913191219111910190f190e190d,
  0x1e311e301e2f1e2e1e2d1e2c1e2b1e2a1e291e281e271e261e251e241e231e221e211e201e1f1e1e1e1d1e1c1e1b1e1a1e191e181e171e161e151e14,
  0x1e4f1e4e1e4d1e4c1e4b1e4a1e491e481e471e461e451e441e431e421e411e401e3f1e3e1e3d1e3c1e3b1e3a1e391e381e371e361e351e341e331e32,
  0x1d141d131d121d111d101d0f1d0e1d0d1d0c1d0b1d0a1d091d081d071d061e5e1e5d1e5c1e5b1e5a1e591e581e571e561e551e541e531e521e511e50,
  0x1d321d311d301d2f1d2e1d2d1d2c1d2b1d2a1d291d281d271d261d251d241d231d221d211d201d1f1d1e1d1d1d1c1d1b1d1a1d191d181d171d161d15,
  0x5cd6186018611d42186d186e1d411d401d3f1d3e18701871186f187218731d3d1d3c18761877187418751d3b1d3a1d391d381d371d361d351d341d33,
  0x182818271822182118201e041e031e021e011e001dff1dfe1dfd1dfc1dfb1dfa1df95d095cff5cfb5cfa5cf95cf75cf45cf15ce45ce35cde5cdd5cda,
  0x1df81db81db71db61db51db41db31db21db11db01d461d45183c183b18321831187d1d44183e183d183a18391838183718361835183418331e051dd5,
  0x1a771a761a751a741a731a721a711a701a6f1a6e1a6d1a6c1a6b1a6a1a691a681a671a661a651a641a631a621a611a601a5f1a5e1a5d1a5c1a5b1a5a,
  0x1a951a941a931a921a911a901a8f1a8e1a8d1a8c1a8b1a8a1a891a881a871a861a851a841a831a821a811a801a7f1a7e1a7d1a7c1a7b1a7a1a791a78,
  0x1b1a1b191b181dd71dd61dd21dd11aac1aab1aaa1aa91aa81aa71aa61aa51aa41aa31aa21aa11aa01a9f1a9e1a9d1a9c1a9b1a9a1a991a981a971a96,
  0x1b381b371b361b351b341b331b321b311b301b2f1b2e1b2d1b2c1b2b1b2a1b291b281b271b261b251b241b231b221b211b201b1f1b1e1b1d1b1c1b1b,
  0x1b561b551b541b531b521b511b501b4f1b4e1b4d1b4c1b4b1b4a1b491b481b471b461b451b441b431b421b411b401b3f1b3e1b3d1b3c1b3b1b3a1b39,
  0x1d791d781d771d761dd41dd31dd01b6d1b6c1b6b1b6a1b691b681b671b661b651b641b631b621b611b601b5f1b5e1b5d1b5c1b5b1b5a1b591b581b57,
  0x1d971d961d951d941d931d921d911d901d8f1d8e1d8d1d8c1d8b1d8a1d891d881d871d861d851d841d831d821d811d801d7f1d7e1d7d1d7c1d7b1d7a,
  0x5ce25ce05cdb5cdc1dc41dc31dc21dc11dc01dbf1dbe1dbd1dbc1dbb1dba1db91dca192b192a192919281927192619251924192319221d9a1d991d98,
  0x5d105d0f5d0e5d0d5d0c5d0b5d0a5d085d075d065d055d025d035d015d005cfd5cfe5cf85cf65cf55cf05cef5cee5cea5ce95ceb5ce85ce55ce65ce1,
  0x3a6535fe356e3ee0391900030002000133d4000027b63c985d245d235d225d215d205d1f5d1e5d1d5d175d1c5d1a5d195d185d1b5d135d145d115d12,
  0x000c40fe35d4000b3bee2ffc000a27bf00090008000740fa376a27c0266d3c92245a34a3000636ad40f83485403b000525ce40f500043d8624d840f3,
  0x410200182dc80017324400160015001441002dde2f7700133fcc398f26fb390f0012410d0011301800102647000f28b4000e000d3fa549573bdd2987,
  0x002200210020001f3a8a3a533c8f33e72dca4110001e001d3caf25a6001c2a23001b347a330933ae001a2f5728792b023ebe39bf3f8300193cc2316f,
  0x003a0039003800370036345f003500340033003200310030002f002e002d002c355a002b30cf30ef002a0029002800270026002541110024002336d6,
  0x391d41fe410e0045004400433b0a3be6004240f9004100402db339ca41122b703e1f003f2eba3d7540f2281336af003e3f103d83003d300a003c003b,
  0x3cb7005200510050413a353c004f004e004d004c4203004b4200348a004a00490048300038cb2dae3a900047322f2aed25173cbd2ab22d0200462e7d,
  0x41e9005a005900583a6c29473ee337a636b8406324f3005730d500560055266c354500542d302d38413c005325cb33c22d3d4117413b413d353b369f,
  0x353f0067006600652c642c874146006441433fae00633c15006200610060318241403ca4005f413e005e005d3cb1302d2693005c413f005b345d4141,
  0x2bba3d603faf007800770076007500743b3e287828cf2c4839ce007300723c9e414900710070006f006e006d006c006b33e8006a2895006928b00068,
  0x008530250084238a008341b200822a0f24cb00810080007f414a3996007e007d414830d4414735fa007c4144007b2644399535d0007a007941422bac,
  0x2adb0096384e00953d6e40874034272439a000940093009200910090008f2702008e008d273f008c008b008a0089008841b33771008737700086361b,
  0x2c5a00a100a0237c3c0f009f009e2f51009d009c331c009b414c009a41ec41453d5100990098325c41b0414b414f408a28c3414e3d7b41eb41b10097,
  0x41b600b141b900b036b900af2f7e00ae41b725b900ad00ac00ab3f8b41b800aa00a900a836a641ba00a741bd41bb00a600a500a400a341b400a241b5,
  0x2afb39cf00c041be00bf41bc2eae347b24fd3f032d0b00be30bf00bd00bc3a6300bb00ba3c9d00b929f800b800b700b627c600b500b441bf00b300b2,
  0x00d800d700d62e6400d500d400d300d241c32802267200d100d000cf244200ce00cd00cc00cb00ca00c900c800c700c6348900c500c400c300c200c1,
  0x00e541c22fe841c100e441c000e300e241c500e13b2600e041c83d7c240241c600df41c400de28d0378200dd00dc00db00da00d941c72f7f348141ed,
  0x00fb00fa00f900f800f700f600f500f400f300f200f141d100f000ef00ee235400ed41c900ec00eb00ea00e941cc00e82de800e7293a3b3f2c7c00e6,
  0x010c2df041d4010b010a0109258601082d2f0107010641d201053cad2aff38310104010301022df801012710010000ff41ce00fe241541d300fd00fc,
  0x0120011f41d7011e011d011c011b3496011a3f8a01193ec5011801170116011501140113011201110110010f010e41cf41d041cd010d325841ca41d5,
  0x013601350134013301320131013038ca012f4089012e012d012c012b41d8012a012901280127012633a041da012541cb01240123012241d92c620121,
  0x014c2ec1258041d6014b014a41dc01490148014738dc32f30146014501440143014201410140013f013e41db013d013c013b013a013901382ce80137,
  0x01670166016501640163016201610160015f015e015d015c015b015a0159015801570156239901550154015301522f7d015101502946014f014e014d,
  0x017c017b35e441e0017a01790178017701760175017423620173017201710170016f2678016e016d41df263b41de016c41dd016b268f016a01690168,
  0x0197300401960195019441e10193019201910190018f018e3a94018d018c018b018a0189018801870186018501840183018201810180017f017e017d,
  0x01ae01ad01ac01ab2cf001aa378601a901a801a701a641e641e341e401a501a401a301a235dd41e501a101a0019f019e019d019c019b019a01990198,
  0x01c701c601c501c401c3355601c201c101c001bf01be01bd41e801bc01bb01ba41e741e201b901b801b701b601b501b401b301b201b101b0339c01af,
  0x01e401e301e201e101e001df01de01dd01dc01db01da01d901d801d701d601d501d401d301d201d12f5d01d001cf01ce01cd01cc01cb01ca01c901c8,
  0x01f601f527e701f401f301f2319d01f12e8e01f02a313a6b01ef3eee25bf3b373e0301ee3e2340f4280e01ed01ec01eb01ea01e901e801e701e601e5,
  0x2a012f3d020641f1303829fa236c02050204351c02030202355c020102002da901ff01fe01fd01fc01fb27ca01fa270a01f901f801f741ff41fd38ea,
  0x021202113e3224fe0210020f352e2965020e020d3253020c020b413841f52c46020a020936cb2c6f3c170208405b273b2de433d924573b2c2a270207,
  0x022327c1420a022202210220021f021e42713e02021d4270021c2a29021b021a021932e02e0102183b1502173550426f319c02160215316b02140213,
  0x274902302ff8022f426e404f022e33d5022d022c022b2dc0022a0229420c420d27c80228022702262f653c8e2eb902252dfb25c0420b245828be0224,
  0x0246024502440243024228c20241024028852c41023f023e3276023d301c023c023b023a023902380237023602350234266e02332c7e023202313027,
  0x348328a90250024f35414127274a270d3e3d024e2abc43552bc225d1235d38e0024d3b384354024c2721024b024a2b962e70024933b3024841fb0247,
  0x025f3307025e025d025c35ed025b025a25d00259264d29663e4b3034300f4f290258025702562b793b2d0255025441294346025302522e7202514128,
  0x38532c4a27fc412d412c026a2a4302692e8f266535e13520374d3f9b02680267412b02660265271402642a1d412a0263244f02622f7c331002610260,
  0x4130027e027d412f027c4131027b027a02790278027733bf02763847027502742cea2a1f027302723463412e02713a9a0270026f026e026d026c026b,
  0x2d12029441330293029202910290028f028e028d028c028b028a297f02890288294202870286028502842c7d369002832dec0282239f02810280027f,
  0x352102ab2fe502aa02a902a802a702a602a502a4413702a302a2413602a102a0029f029e029d029c029b3333029a0299029802970296413441350295,
  0x02ba02b902b802b702b602b502b402b32f4e2da72f7902b202b102b0434a43492d2032e33fcf27c402af02ae02ad02ac3012434839d62c5c29f5238d,
  0x02ce2e7402cd434e02cc02cb02ca2f5602c9434d02c802c702c602c53bca02c4319e02c33d5d02c202c102c024c702bf02be02bd36b3434b02bc02bb,
  0x02e902e802e702e602e502e402e3434f02e202e102e002df02de02dd02dc02db02da02d902d8348d02d702d602d502d4323502d302d202d102d002cf,
  0x410102fb02fa02f902f841fa459002f741f802f602f502f402f33b3a02f2266b239d02f102f002ef02ee3e2139d52a0302ed02ec02eb360641f702ea,
  0x030e030d030c030b030a4122030903080307289e0306030503044121030303023a5e03012eb22cfa030002ff3e2a02fe02fd411f25b202fc24102b7a,
  0x240f031d3b0e2b75031c031b031a238c2ba739cc362c031940f70318345a0317369b0316325d4123031503143c9a34ab339a0313031203110310030f,
  0x316941050327032639a5032542ad032439b94125032330ae412630a92e6b3ed346352444032224d4032124c60320031f324830f126fc031e40524077,
  0x41183c003bd803342f78033303322f7b38652807033125820330032f3497032e032d032c032b42ae032a3b172df2032930ce35252c3d032839883d3c,
  0x034703462dcc25d303453a66411b0344411a3a84034303423e06034141190340033f2afe033e2f66033d033c24fb033b033a03390338033703360335,
  0x25033d71035d035c035b035a035924eb356f03583a7b0357035603553516035403530352035143570350034f034e034d034c034b034a411c03490348,
  0x036a302c2de92a142e9d0369036827554350036703660365330803643b51244336c93512036336d20362036128750360035f035e288737563d6c2c39,
  0x0371298825af03703d90036f036e036d46372747463a036c382737692ad23c934120036b3d6d36a4463638112e8c27b823693ef02d173f9046384639,
  0x46470379464428a03cd438f3301e03782e0203770376037530ed463c30bd03743a68463b3a9538e92f752b0031b638d30373274c2c332adc0372463d,
  0x03843bdc038339c603822afd39ac0381264e39e10380037f258e39c7037e46483f7d037d33e9375c2e9738662ab9037c28a727eb236a28c4037b037a,
  0x03920391039039bd346d038f46463e0a4645464232f246414640463f038e323e038d038c038b038a463e2977038925a50388268d0387038646430385,
  0x31b72b01361a03a203a13315464b46512ad403a0399b465d464c039f039e039d039c039b039a039903983fb1039746520396464d0395325103940393,
  0x464f464e303b03b003af2e6a2a0d464a03ae3fb903ad29513d582dd103ac2ada3ebd03ab03aa03a903a8330f03a7465003a6464903a52ddc03a403a3,
  0x03be3a6f03bd03bc03bb46572e8b03ba3e3403b92e6c03b846553c844ae246674666405c4659465a03b74668465e03b603b503b403b303b2465303b1,
  0x2b7403c6465f465c465b46583be54654466a23463a8f466203c503c43e2e2a4d390227f403c32af203c2465633ac2348466103c13be903c0466003bf,
  0x03d403d346713ef303d203d103d03a9b2ea103cf03ce323d2fe73609466d32ed297803cd03cc03cb03ca03c93d4f466b4669466503c84664466303c7,
  0x03e703e64675382f467403e503e403e303e203e1234703e02656379f03df03de03dd03dc3c0303db434c03da466f2aec03d924d503d803d703d603d5,
  0x258546e8398d36c803f82b6e03f7467703f603f5467603f403f32b884673467203f2466e03f103f003ef03ee466c03ed03ec03eb03ea03e903e84670,
  0x040b040a0409040804072342467b0406040535fb040440572e930403467d0402467f390004014681040003ff03fe03fd46e203fc03fb03fa46e703f9,
  0x467c4115041d32f5041c041b46782f3335e53396041a0419289b041804170416041546e90414041304120411041046e3467e040f040e040d040c4680,
  0x46ea2abd2afa46ef2f2f0429042835f546ec399e46f02e69042746f20426384d46f5042504243b0646e646e546e40423042204210420041f041e326f,
  0x043e043d3b5b043c043b043a043904380437043646f104352ad53a550434043346fa264604320431043046f9042f042e46f4042d4679042c042b042a,
  0x045204513b4247050450044f044e044d044c46f846f7044b3d92044a46ee0449331e0448467a04473e54044646ed044504440443044204410440043f,
  0x4707470e376e046139b0046046f6045f470436b5045e045d045c045b045a46f30459470235d346eb46ff045804570456470b470a0455045446fd0453,
  0x0471047047134717046f4716377f046e046d046c046b046a46fc0469470d046847094708046704664706046504644701470046fb0463470c04624703,
  0x0486048546fe47100484048330ec048204813b4b0480047f047e047d047c047b047a04794116295304784712047704762c5747110475047404730472,
  0x2ae604980497049639e00495471b0494049337660492407f0491258b3fcb0490048f048e4719471d048d048c048b048a471804890488471447150487,
  0x04ae472104ad04ac4720471a471c04ab04aa472304a904a804a704a604a53c8a471e472204a404a304a204a104a0049f049e049d049c049b049a0499,
  0x472804c204c104c004bf295204be04bd04bc04bb472604ba04b904b804b736b647273e4440fd33ec04b604b504b4472504b3471f04b204b104b004af,
  0x04da04d904d804d704d604d5472b04d404d304d238502acc04d104d004cf04ce04cd04cc04cb4724472a04ca04c904c804c704c604c504c404c34729,
  0x353304f504f404f304f204f104f004ef472c04ee04ed04ec04eb04ea04e904e804e704e604e504e43a9c04e304e204e104e004df04de04dd04dc04db,
  0x0510472d050f050e050d050c050b050a050905080507324b050605050504050305020501050004ff04fe04fd04fc04fb04fa2d0704f904f804f704f6,
  0x0520051f266a2f28051e051d3e09051c4732051b051a051905180517051627ef051538ec47303ccf41072ba3472f0514376f34a705130512472e0511,
  0x05310530052f052e052d052c052b473647373517052a3e0b0529473533c9052805270526473438e32a49052505242a1b47330523052205214731398c,
  0x436843672a3643630545436443623e33054405430542054136920540053f053e38e8053d053c4738053b053a05390538053705360535053405330532,
  0x3817435b0557288e055605552dfe0554055305520551436b05503f8c054f2bc3054e054d436a257c4366054c054b054a05490548436505470546272f,
  0x436e33af436c43720562382205612f250560055f33b7404c28ab39d023744369381c2c6a055e055d2eac055c055b055a055905582e96408b2b802e75,
  0x057405730572436f436d309f2f2d265205710570056f056e056d43704371056c056b056a2e834374056905684375056705660565332e056443730563,
  0x437b2e94058643773e042a07435d437e058505840583058227f705810580057f057e057d057c057b437d2f5e057a057905780577057643783b2e0575,
  0x059b059a234429f005990598059705960595059405930592059143840590058f058e437c058d4379058c058b058a2ea843760589273d0588435c0587,
  0x05ad05ac05ab24d73d8d05aa438905a905a843814382438005a705a6437f33c705a5438305a405a3437a25a205a205a130ee05a0059f059e059d059c,
  0x05c243ee05c105c043ec05bf05be2bc43317438705bd05bc05bb438505ba05b905b805b7438605b643ed05b505b405b305b205b105b005af05ae4388,
  0x05d743ef05d605d505d405d343f005d205d105d027fe05cf05ce05cd346805cc05cb05ca43eb05c943ea05c805c705c644c727e605c505c405c3382c,
  0x05ef05ee05ed05ec05eb05ea05e905e827d705e705e605e505e43bfe05e305e205e105e005df2e7305de05dd05dc05db05da272305d905d8240343f2,
  0x060706060605382a06040603060237a906010600378705ff05fe05fd4f5e37a505fc05fb05fa05f905f805f705f643f105f505f405f305f205f105f0,
  0x06210620061f061e061d061c061b061a0619061806170616061543f438570614061306120611061043f3060f060e060d060c060b060a356c06090608,
  0x0637063606350634323235f90633063206310630062f062e062d062c43f6062b062a062936e806282db8062743f543f80626435e0625062406230622,
  0x064f064e064d064c064b064a06490648064706460645064427ea32240643064206410640063f063e063d063c3b473e4f063b063a063943f734700638,
  0x06690668436106670666066506640663066206610660065f065e065d4360065c065b065a24390659065806570656435f065506540653065206510650,
  0x0681362806804046067f353a36ac067e067d067c067b067a06793531067806770676067506740673067206710670066f066e066d066c066b2acb066a,
  0x3a670697294506960695069406930692241706910690263f068f4877068e068d068c068b068a0689068806873c99068606852b05068406832e8a0682,
  0x410306a728c53814385506a6268c06a54874487606a406a306a206a12a0a06a0069f3c96069e27f541fc069d069c39093a4941f6069b069a06990698,
  0x28af06b528c1324733db06b406b33bf806b24347458b06b106b006af06ae458a06ad27f62c592ea73ca106ac06ab38de06aa06a9369406a82ac83c0a,
  0x06c706c606c506c4236306c306c2360c06c1274306c006bf06be06bd06bc458e06bb458f38402cf8458d241b06ba06b933ea06b840732ebf06b706b6,
  0x294f404406d939244af135584af006d806d706d62ad006d506d406d337a82c7206d2324506d132e232e506d006cf06ce06cd06cc06cb06ca06c906c8,
  0x38fe4b5a4af506eb06ea06e906e84b5906e706e606e506e431a906e34b563c1c06e206e12c5427df06e006df06de06dd4af206dc06db354206da30e5,
  0x06ff06fe06fd06fc06fb4b5f06fa06f933d306f8317e06f706f606f506f406f306f24b5c06f106f04b5d325606ef06ee4b584af44af3289406ed06ec,
  0x0710070f070e070d4b622cf1070c3c83070b4b654b5e070a070939943b364b5b2a122d2a070807070706070536a94b57070407030702323007010700,
  0x405e0727072607253cd307244b660723072207210720071f071e071d071c071b071a071907182c300717071607153ca9071407132f5207124b640711,
  0x07383241073707360735326807340733073207314b6d07304b6b072f072e072d072c4b67072b072a4b684b632d064b614b6030a33905072939250728,
  0x074d074c074b074a0749351307484b6a07474b693d840746074507440743074207410740319f073f073e073d2805073c4b6c073b073a361e2def0739,
  0x07650764076307624b7107610760075f075e075d075c075b075a075907584b7039180757075633ba075507540753075207514b6e0750074f074e4b72,
  0x4b7836234b743d3f077b077a07790778077707760775077407732f38077207714b6f0770076f076e076d4b73076c076b076a07690768076707662bb4,
  0x07960795079431780793079207910790078f078e078d078c078b078a078907880787078607850784078307823b5707810780077f077e4b79077d077c,
  0x3a544b7c07af07ae07ad07ac07ab07aa07a94b7607a807a707a607a507a407a307a207a107a0079f079e079d079c079b4b77317f079a079907980797,
  0x07c607c507c407c307c23a7607c107c02c3e07bf07be07bd07bc07bb07ba35d82c6707b907b84b7a07b707b607b507b407b34b7f07b207b14f5f07b0,
  0x07d907d807d707d64b7b07d5325407d407d34b8407d207d14b8107d0272c4b8007cf07ce07cd4b8607cc07cb07ca4b8507c94b8307c84b7e07c74b7d,
  0x07f507f407f307f24b8707f107f007ef07ee07ed07ec07eb07ea07e907e807e707e607e507e407e307e207e107e007df07de07dd07dc07db4b8207da,
  0x08110810080f080e080d080c080b080a080908080807080608050804080308020801080007ff07fe4b884b8907fd07fc07fb07fa07f907f807f707f6,
  0x082b082a08290828082708260825082408234b8c082208210820081f081e081d081c081b4b8b081a0819420708184b8a081708160815081408130812,
  0x08373bc64b902a112c474b9408360835318a08343b03406141144b8f379a267f406908333e292e9a4b9308324b92406608310830082f082e082d082c,
  0x3ec34aaa37a7084732774aa908460845326e084408433557084208410840083f28c8083e4b91083d4ae536d8083c083b083a40fc083930cc2aaf0838,
  0x3b5c2e90362225c3085136a224053ca8391727bd3fbb2a28406d08504aab084f4aac084e084d084c2af7084b084a391137790849235336c53d890848,
  0x0860085f378924552eb0085e085d085c354e4aae085b2c5b3a9f3c062ab3085a08593e30085808570856085529fb3a7f0854085308522b8d4aad36bf,
  0x250932283491087208710870086f086e086d086c086b086a3dfb2abb0869317d086808670866294c08650864086308622e9f31973cd72c4d08612c4e,
  0x088527133bcf376d27e9268008840883088208810880087f087e4ab5087d4ab3087c087b087a087908783ec60877087630074ab2087508742a200873,
  0x089635ff0895259908942c6b4b8d281008930892360808913b020890088f088e088d408339a3088c088b2cf2088a36130889088828b5088736c60886,
  0x3cd9369908a908a808a7459408a608a52dd208a408a308a208a1459308a0089f089e089d3c7f089c45923d63089b4591089a089908980897257d4b8e,
  0x08b408b33ed008b208b108b03b1d4ae333b636a708af08ae39c22d33385434af08ad08ac2dd808ab08aa2500339d2ddb326b39972da6325a4ae125ba,
  0x08c808c708c608c535ec08c438f44aef08c308c208c108c008bf08be08bd4ae730c108bc4ae608bb30c238e708ba36e108b908b808b708b64ae408b5,
  0x08dc08db47ae47a908da08d947a847a608d808d708d647ab08d508d408d308d208d133e6379508d03d8708cf08ce08cd08cc47a73cb608cb08ca08c9,
  0x47b608eb08ea08e9302a47b447b508e83bf108e708e608e508e408e347b747b208e208e108e008df08de47b0271147af47ad47ac296b47aa08dd250a,
  0x090008ff08fe08fd47bd08fc08fb08fa08f908f808f747ba08f608f547b808f42ebc08f347b308f208f108f008ef235747b908ee47b108ed3e1908ec,
  0x3480091509143d9309132800091230ca47be47bc091109103a62090f090e090d090c090b090a09093f9a09080907090609050904090347bb09020901,
  0x092d092c092b092a25c247c60929092847c047bf0927092609250924092309222e0309210920091f091e091d091c091b091a0919091828b809170916,
  0x241f094247c147c2094147c40940093f093e093d093c47c5093b093a47c709390938093709363be1093526770934093309320931093033de092f092e,
  0x525d095a095909580957095609550954095347c947cb095209510950094f094e094d094c094b47ca094a094909480947094647c33ecf094509440943,
  0x097209710970096f096e096d096c096b47cf096a47cd0969096847c809670966096509640963096209610960095f095e095d346947d147d2095c095b,
  0x098a47d50989098809870986098509840983098209810980097f097e097d47d4097c097b097a097947ce0978097747cc47d0097647d3097509740973,
  0x09a609a509a409a347d709a209a109a047d6099f099e099d099c099b099a0999099809970996099509940993099209910990098f098e098d098c098b,
  0x09c309c209c109c009bf09be09bd09bc47d909bb09ba09b909b809b709b609b509b409b309b209b109b009af09ae09ad09ac09ab09aa09a909a809a7,
  0x264109dd4c5009dc09db09da09d909d809d709d609d509d409d309d209d109d0398609cf09ce09cd09cc09cb09ca09c947da09c809c709c609c509c4,
  0x09eb09ea09e909e83a9209e709e6236e37733cae2c4309e5435a250b09e409e339bc09e229fd2de3347c408629f309e109e0258d3bd109df09de3fb2,
  0x473a2ff009f8386432f8473b09f709f6473c3ee1473909f509f43a4609f309f209f1369309f0287e375209ef24d936bd243109ee09ed2d3441f209ec,
  0x47a00a0c0a0b0a0a0a090a08473d0a070a0623903a520a050a040a030a020a013f7626910a0009ff09fe09fd09fc09fb09fa09f927323f9924cc3fb8,
  0x323447a20a200a1f0a1e0a1d0a1c0a1b0a1a2b9a0a190a180a170a160a150a1428cc47a10a1331980a120a110a100a0f316c473f473e0a0e0a0d257e,
  0x33b2295a0a380a370a360a350a340a330a320a310a300a2f0a2e0a2d0a2c0a2b0a2a264a47a50a290a2847a40a270a2647a30a250a240a230a220a21,
  0x488d30ab3b530a450a440a43488e264b0a420a412432349f0a4040420a3f0a3e0a3d488c2a320a3c3d5f3d722b8e4c4e0a3b3b330a3a24bf0a393263,
  0x0a540a5338cc0a520a510a500a4f0a4e408c27dd48900a4d0a4c0a4b0a4a489128a2330a0a49293f0a48298e31a80a472741488f272e3d412ea50a46,
  0x0a690a680a672f492fed0a660a650a640a630a620a610a600a5f0a5e0a5d48940a5c0a5b0a5a0a5948923d542e7836e948930a5848950a570a560a55,
  0x0a80489b0a7f489a0a7e0a7d0a7c0a7b0a7a0a790a780a770a760a750a740a7348990a720a710a700a6f300d0a6e0a6d2f2b489748980a6c0a6b0a6a,
  0x0a9245890a910a900a8f32e133ef3cc943582e6d40f645880a8e0a8d0a8c2cef0a8b0a8a38c93bf20a8943530a880a870a860a850a840a830a820a81,
  0x2b6c3a7531910aa20aa10aa00a9f3edc27330a9e0a9d0a9c25b50a9b0a9a2af829360a993cda0a9829fc0a9746340a9636aa0a950a940a9346312436,
  0x0ab70ab60ab50ab40ab34fd90ab20ab10ab04aed0aaf347227060aae0aad0aac0aab0aaa0aa90aa835660aa7390b0aa64aeb0aa50aa44ae94aea0aa3,
  0x0acb3b2f47e90aca0ac90ac83caa0ac70ac60ac50ac44ae04ade4adf30b90ac327082a380ac24add0ac10ac00abf0abe0abd0abc0abb0aba0ab90ab8,
  0x3f0e39200ada0ad90ad8242a25940ad73cb80ad647dc0ad50ad40ad347db0ad23d4b3eda0ad10ad0332424510acf244a24e70ace0acd3c040acc38d5,
  0x0ae80ae70ae647e30ae50ae447e232fe271a0ae347e10ae20ae138e40ae03b4d0adf0ade0add47e030c62b7d47df2ae947de0adc26962dbb0adb47dd,
  0x2ba047e70afd0afc0afb0afa27190af947e60af80af70af60af50af40af3398747e50af20af13bcc0af047e40aef0aee0aed0aec0aeb0aea3d940ae9,
  0x0b0c0b0b316139233f93489f0b0a0b090b0846325026502748a00b07353d2c520b060b05489e0b040b033cc12437489d3b250b020b010b000aff0afe,
  0x0b1e48ab0b1d0b1c32670b1b0b1a0b19259b0b180b1748a248aa0b162eaf48a90b150b143d620b130b1248a50b110b1048a43fa70b0f0b0e493e0b0d,
  0x0b2924dd32f93f110b2832e40b270b2648b03e4e48b10b250b2448b40b230b220b2148a848a748a348a1377638152b7e28b148a62b030b203b240b1f,
  0x48ad0b380b370b360b350b3434860b330b320b3148b32a2548b23e123b3548ae2c3a0b300b2f0b2e48b626f80b2d0b2c37672fee48af0b2b48ac0b2a,
  0x0b4c2af00b4b2e990b4a0b492b9b0b482ff40b470b460b450b440b430b420b4136be48bb508c0b4048b50b3f0b3e5088406f0b3d0b3c0b3b0b3a0b39,
  0x0b5a34543a450b5929f6385a27c7491c280c2aeb508b0b580b573b55508e2ba10b560b550b540b5350890b520b51508a508d0b500b4f0b4e374c0b4d,
  0x0b6a0b692ac449240b680b673a470b660b650b640b63347749220b620b610b603d5c0b5f491d324e48b948ba48b848b70b5e28060b5d0b5c2e950b5b,
  0x49203b5d508f0b7a0b7932730b783e1c0b770b762b870b750b743d6139d70b7349210b724925491f0b710b700b6f491e0b6e2ba50b6d49230b6c0b6b,
  0x39162daf0b8d0b8c0b8b492b349c0b8a0b890b880b870b860b850b840b83271649270b820b812c4b0b800b7f0b7e492d0b7d240e49280b7c31b00b7b,
  0x25a824ef2dea27420b9f0b9e0b9d0b9c0b9b2ba8398e0b9a49293a4a0b99492c0b98492a0b970b9638510b950b940b932bbe0b920b910b900b8f0b8e,
  0x0baf50900bae0bad0bac0bab25c949330baa0ba90ba80ba70ba63b2b35380ba50ba42b970ba349323a8e0ba20ba127fd2a2e270324ee492624180ba0,
  0x0bc228b249310bc10bc0492e29610bbf0bbe0bbd0bbc3d790bbb0bba0bb90bb849300bb70bb60bb50bb40bb33cbf493450910bb20bb10bb03d7f3d95,
  0x0bdc0bdb0bda0bd93e110bd80bd70bd60bd50bd40bd30bd20bd10bd00bcf0bce0bcd0bcc0bcb0bca0bc90bc80bc70bc649350bc50bc40bc32f23492f,
  0x0bf30bf20bf10bf050920bef0bee0bed0bec0beb0bea0be932360be80be70be636140be50be436260be32b900be249360be126610be00bdf0bde0bdd,
  0x0c0b0c0a0c090c080c070c060c050c042e790c0349370c020c010c000bff39a40bfe0bfd0bfc0bfb0bfa0bf90bf82e712ba60bf70bf60bf50bf430fa,
  0x50940c250c240c230c220c210c200c1f0c1e49390c1d0c1c0c1b0c1a0c193e500c180c17244e0c160c150c140c130c120c110c100c0f0c0e0c0d0c0c,
  0x0c3e0c3d0c3c0c3b493b0c3a0c390c380c370c360c350c340c330c320c3149380c300c2f50932ab6493a0c2e0c2d0c2c0c2b0c2a0c290c280c270c26,
  0x0c540c530c520c510c50493c0c4f2f4250960c4e0c4d0c4c0c4b0c4a509523640c493b190c480c470c460c450c4427c30c430c420c412ac30c400c3f,
  0x0c700c6f493d0c6e0c6d0c6c0c6b0c6a0c690c680c670c660c650c640c630c620c6132ea0c600c5f0c5e0c5d0c5c0c5b0c5a0c590c580c570c560c55,
  0x49590c810c802d2b39b725a43a5a354736e63b484e5439d10c7f297b0c7e50970c7d0c7c0c7b0c7a0c790c7843fb0c770c760c750c740c730c720c71,
  0x265a0c910c900c8f0c8e30bb0c8d4e5c0c8c2d1f0c8b0c8a0c890c884e5a4e5b0c874e584e590c864e570c850c840c834e5633d20c823ed44e552bbd,
  0x33c00c9f0c9e3e5324e2459536c30c9d5012501135f70c9c0c9b0c9a50100c99244137a42892500e500f0c980c970c960c950c942b720c930c922690,
  0x2591238832db3c0e35d745962f2a0cae3f8934570cad0cac2e9e0cab0caa0ca90ca80ca70ca60ca52e7b0ca40ca338f70ca20ca10ca03544268b2368,
  0x0cc10cc00cbf23722df60cbe0cbd0cbc0cbb25880cba0cb90cb82c4525ab3ee90cb728080cb60cb533310cb40cb328c90cb20cb123830cb00caf3536,
  0x33320cce0ccd33210ccc0ccb24072b6f0cca347330d22e9c45970cc90cc80cc7330e29380cc63ef22e7c27cb38dd0cc5403836d03cb30cc40cc30cc2,
  0x2f2e3262322d250d26fa3fc90cdd28ca0cdc0cdb31ad0cda25c43bd945980cd932210cd80cd70cd6272d0cd50cd40cd324060cd20cd10cd00ccf3810,
  0x32d82f3a3d500ce62c7930a00ce50ce4325b0ce30ce2237e3ee7459a40512dd5459b38f60ce1236f38ff2de10ce02a240cdf301f32fb23890cde4599,
  0x0cf30cf20cf12a2125b10cf0323c369d403a33a90cef0cee0ced0cec2e80459e0ceb3754351e0cea29ff0ce93f13459c36b02f290ce80ce73e4a24c3,
  0x3f0c459d2709324c3b0f380b39b30d0230cb3f940d010d000cff39010cfe0cfd0cfc0cfb385d0cfa0cf92ea90cf80cf70cf60cf523554ea93f8d0cf4,
  0x0d160d150d140d1339130d120d1138cd459f0d100d0f0d0e0d0d0d0c0d0b4eaa0d0a0d093f080d080d070d06268532e90d0523450d040d032b9e2c40,
  0x379b2f4d0d260d250d240d230d220d210d200d1f24d30d1e0d1d0d1c0d1b2ded326c36022ac1236745a00d1a40500d190d182f2738d80d1745a139cb,
  0x0d380d37326645a50d360d352d2426500d340d330d320d3145a40d300d2f2de245a80d2e0d2d0d2c45ab0d2b332c0d2a0d290d28270e2b862c7a0d27,
  0x0d490d480d472df70d463c910d450d440d4332fc0d4233f3383645a60d413edd0d4045aa274b36c727f30d3f0d3e0d3d0d3c27370d3b3a690d3a0d39,
  0x0d5726fe3f950d560d5545a730ad0d540d534eab0d5245ac45a245a90d5126843bf938ed2e9b0d502d1a0d4f259338260d4e30d00d4d0d4c0d4b0d4a,
  0x0d693c9b0d680d670d6625020d65384a31a345b440740d640d630d6235510d610d6045b60d5f45b20d5e0d5d0d5c0d5b0d5a45b70d5945ad0d582511,
  0x0d7e3e070d7d45ae0d7c0d7b0d7a0d792d190d780d772dc32e6e0d760d750d740d730d7226400d7139ba45b00d7045b30d6f0d6e0d6d0d6c0d6b0d6a,
  0x26830d8f0d8e263d24c80d8d0d8c45bd45ba0d8b0d8a0d890d880d872d080d860d8530a4297a251045b10d842f400d830d820d810d8045af0d7f45a3,
  0x0da30da20da10da0268723820d9f382b0d9e0d9d0d9c45be0d9b0d9a0d990d9845bf45bc0d9729740d96377c45bb0d950d940d930d920d910d9035d5,
  0x0db60db50db40db30db238180db124563c7e237b45b836120db00daf45b90dae4f0c0dad25080dac0dab3b100daa0da90da80da70da64ab10da50da4,
  0x45c20dcd0dcc0dcb321f0dca26760dc90dc80dc70dc60dc50dc40dc30dc245c00dc10dc00dbf0dbe0dbd3ec10dbc0dbb0dba374f0db945b50db80db7,
  0x0de40de30de20de133a70de02df445c10ddf300b0dde0ddd0ddc0ddb0dda0dd90dd84624321a31b90dd70dd60dd50dd40dd30dd20dd10dd00dcf0dce,
  0x30020dfa0df90df80df725920df60df50df40df30df240450df10df00def0dee46270ded0dec45c337650deb0dea356725a00de90de80de70de60de5,
  0x0e0c0e0b35f20e0a0e092f5f0e0846290e070e060e052ac00e0446280e03462646250e0232650e010e000dff0dfe403e0dfd268224c2347e0dfc0dfb,
  0x0e21462c0e20462d0e1f0e1e0e1d377e0e1c0e1b0e1a0e190e184f0d462b0e170e160e150e14348f0e13462a0e12349924f60e110e100e0f0e0e0e0d,
  0x0e3d0e3c0e3b33010e3a0e390e380e370e360e350e340e330e320e310e300e2f0e2e0e2d0e2c0e2b0e2a0e290e280e270e260e250e240e230e2224de,
  0x0e580e570e560e550e540e530e520e510e5035320e4f0e4e0e4d0e4c0e4b3e350e4a0e490e480e470e460e450e440e43462e0e420e410e400e3f0e3e,
  0x3f1528980e6a0e6929f40e682955414d0e6736c24f214e640e660e650e640e633f7c46300e620e612df50e600e5f0e5e0e5d0e5c462f0e5b0e5a0e59,
  0x24350e7d2ff10e7c2d130e7b0e7a235e4f220e790e780e772dcd0e7631af0e750e7427270e730e7255e63b080e710e702a190e6f0e6e0e6d0e6c0e6b,
  0x0e910e900e8f0e8e28c60e8d0e8c3f120e8b34760e8a36ea0e890e880e872db94f230e860e850e840e8327ed0e820e8135d129630e800e7f0e7e2583,
  0x300e0ea727cc0ea60ea50ea44fde0ea323804fdc0ea20ea10ea024523ec20e9f0e9e0e9d39a90e9c0e9b0e9a0e990e980e970e960e950e940e930e92,
  0x0eb90eb80eb70eb60eb50eb40eb33b2337640eb227e40eb150a40eb03ecd0eaf293c0eae25bd2d360ead0eac39b80eab3efc0eaa0ea93b1256d10ea8,
  0x0eca0ec90ec84fe50ec70ec640784fe40ec54fe33b5e0ec40ec30ec20ec14fe030c04fe14fe20ec0330b0ebf0ebe0ebd36964fdf0ebc0ebb28900eba,
  0x0ed90ed82ac24e674e664e653b523bcd0ed70ed63e403f912dce270035460ed50ed42c510ed339c30ed20ed10ed00ecf0ece0ecd0ecc0ecb33e14fe6,
  0x0eec0eeb2bb331b20eea251a0ee94e680ee80ee70ee62f260ee50ee44e6b235b0ee34e6d0ee20ee10ee00edf0ede39210edd0edc2eb8369e0edb0eda,
  0x36b40efe3ee80efd0efc0efb0efa4085317c0ef926530ef80ef70ef60ef53d4e3b280ef44e700ef30ef20ef14e690ef00eef0eee4e6c39d93cb40eed,
  0x0f1235fd2d410f110f100f0f0f0e0f0d0f0c0f0b2b990f0a4e780f090f083a770f073fbc0f060f050f040f030f024e734e744e710f010f004e720eff,
  0x0f230f220f21259a0f202ba90f1f39d30f1e0f1d4e7b0f1c4e760f1b0f1a0f190f1839140f170f164e7c4e7a3e274e773aa135e80f150f144e790f13,
  0x0f360f353a610f340f334e7e0f323e360f310f300f2f2fff0f2e0f2d0f2c3f9c0f2b0f2a4e7d2dac0f29349a0f280f270f2639df2db533ca0f250f24,
  0x4e800f4e0f4d0f4c0f4b0f4a0f490f480f470f464e810f450f440f430f420f41235632e60f400f3f0f3e0f3d36db0f3c0f3b0f3a0f394e7f0f380f37,
  0x0f670f660f650f640f630f620f614e820f600f5f0f5e0f5d4ad60f5c0f5b0f5a0f5924080f580f570f560f550f5432330f530f520f510f500f4f55f8,
  0x0f810f800f7f0f7e0f7d0f7c33cd4e844e830f7b36dc0f7a0f790f780f770f760f750f740f730f720f710f700f6f0f6e0f6d0f6c0f6b0f6a0f690f68,
  0x0f934081384f3e510f9230f90f910f9024f90f8f4e6f0f8e0f8d298d3c9434ad0f8c3e140f8b0f8a0f890f880f870f864e860f850f844e850f830f82,
  0x33cf0fa5258a0fa439220fa30fa20fa12f4b0fa04f4937620f9f0f9e0f9d4f3f0f9c0f9b28d10f9a332a4f2e3d6b3e1b0f990f980f970f960f950f94,
  0x3b410fb70fb62bc50fb50fb40fb30fb227f933c80fb10fb03fc10faf36e20fae3e56241d322239990fad32370fac4f670fab0faa0fa90fa80fa70fa6,
  0x0fc80fc70fc60fc50fc43edf0fc30fc24ced0fc1267e24e13b342f6f0fc04cec0fbf0fbe35eb4cef0fbd295c0fbc0fbb35193e2c0fba35e00fb90fb8,
  0x0fd60fd54cfc0fd44cf70fd34cf44e6a0fd22d23240c0fd12ac90fd00fcf4cf34cf03c0d0fce0fcd2f350fcc0fcb0fca385e296d36e54cee0fc927da,
  0x30150fe93f040fe80fe70fe60fe539db0fe40fe30fe20fe14cfb0fe0391e0fdf4cf20fde0fdd2a080fdc0fdb2c340fda238637740fd94cfd0fd80fd7,
  0x4d060ff64d080ff50ff44d032ea00ff34cfa0ff228b6346c0ff14cf84cf60ff04cf10fef3e3f36cd0fee0fed0fec4cf93f7b2a4a0feb31710fea4cf5,
  0x352f33d7295d322c2379100910081007100610051004100310021001100024594d0b0fff4d0f0ffe0ffd0ffc0ffb0ffa0ff90ff80ff74d0c2c582c65,
  0x3fce4cfe2e85101810172c76101610154d021014101310122506101110104d0d100f3274100e40884d092a40100d4d074d054d00100c100b100a3552,
  0x2f394d0e10284d0427c54d014cff3ed2244910273ebb10261025102410234d0a36ae10224d1010211020101f101e101d101c101b101a250e30371019,
  0x103e103d103c3fbf4d23103b103a103910381037103610353b041034103310324d1a10311030102f102e102d2f7633d1102c102b3753102a36e41029,
  0x104a4d214d22235910492eb5398b4d17383b2a3f4d1d4d1f10484d203e2d298210471046298a2ad83c181045104410434d124d11104210411040103f,
  0x40412cf74d1e4d1c34784d18270c4d164d144d1310571056105510541053105210511050104f104e4d1b2d222b83104d35d238d0104c4d15104b4053,
  0x106d23913172106c4d19106b2ff9106a106910681067106610651064106310624d2738d710614d261060105f105e105d105c105b105a10594d291058,
  0x108710861085360110841083108210811080107f107e107d107c107b29f2107a107910784d281077107610754d2510741073107210711070106f106e,
  0x109b4d2a109a2c7510991098109710961095109410931092109110904d24108f36ce108e108d3b163846108c379e108b108a108910882f6739c53189,
  0x10b1382d10b010af10ae10ad10ac332610ab2c3510aa10a9406b10a810a7239510a610a510a410a32a4610a233da10a1319910a0109f109e109d109c,
  0x10c710c610c54d2c10c42a264d2f10c310c210c12e8610c010bf10be2f634d9110bd35dc10bc10bb10ba10b910b810b710b610b510b410b34d9510b2,
  0x10de10dd10dc10db10da10d910d810d710d610d510d42cfe10d34d9610d240483f8710d14d9210d010cf10ce10cd10cc3cab10cb10ca10c94d9310c8,
  0x10f510f44d9810f310f210f110f04da110ef10ee10ed3c8910ec10eb38fd10ea10e910e810e710e610e510e410e34d9010e210e110e04d2e4d2d10df,
  0x110e110d4d94110c110b3b09110a110911081107110611051104110311021101110010ff10fe10fd10fc10fb10fa4d9a10f910f8265410f7264310f6,
  0x2e6f112211211120111f111e4d97111d111c4d2b111b111a4d9d11191118111711164da7111511144da8111311124d9911112f644d9b1110110f25d9,
  0x4db42f471133113211311130112f112e4db6112d112c112b4da64da44da33d77112a4d9c1129295611284d9e11271126112530a2112411234da94da0,
  0x114911484db01147114611454dae11444dad114311423ebc4dab11411140113f113e113d113c113b113a1139113823924daa113711364d9f11351134,
  0x115f2b7c115e4da5115d4da2115c4db2115b115a1159115811571156115511544db11153115211511150114f4dac114e114d114c3527114b114a3030,
  0x117811774db91176117511741173117211711170116f116e116d116c116b4db54db3116a116911682c801167116611651164116311624daf11611160,
  0x1192119111902881118f118e118d118c118b118a11891188118711864db7118524f811841183118211811180117f117e117d117c117b4dbd117a1179,
  0x11aa2aee11a94dc711a811a711a611a511a411a3321c11a23ed811a111a0119f119e119d119c4dbb4dba119b119a1199119811971196119511941193,
  0x11c111c0347411bf11be4dbe11bd11bc11bb11ba11b94dbf4dc611b811b711b611b511b411b311b24dc311b111b011af3d3e11ae4db811ad11ac11ab,
  0x11d911d84dbc11d711d611d53a9311d411d311d211d111d04dc211cf25a34dc811ce11cd11cc11cb11ca11c911c84dc111c711c611c511c411c311c2,
  0x11f23a5011f111f011ef381d11ee11ed11ec4dc911eb11ea4dc511e911e811e711e611e511e411e325d211e211e111e011df11de11dd11dc11db11da,
  0x120b120a12094dc0120812071206120512041203120212014dcd120011ff11fe11fd11fc4dca4dcb11fb4dc411fa11f911f811f711f611f511f411f3,
  0x1226122512241223122212211220121f121e121d121c121b121a1219121812171216121512141213121231854dce12114dcc1210120f120e120d120c,
  0x12441243124212411240123f123e123d123c123b123a1239123812371236123512341233123212311230122f122e122d122c122b122a122912281227,
  0x126212611260125f125e125d125c125b125a1259125812571256125512541253125212511250124f124e124d124c124b124a12491248124712461245,
  0x1280127f127e127d127c127b127a1279127812771276127512741273127212711270126f126e126d126c126b126a1269126812671266126512641263,
  0x4fce12954fcd12941293129212913d961290128f128e128d128c128b128a12891288128732ee128612854fcc3b212b812667346a1284128312821281,
  0x12ac12ab12aa12a912a812a712a612a512a412a312a2297912a112a0346b129f3b0b4fd0129e129d4fcf129c129b129a12992eb112981297129633d0,
  0x12c212c112c012bf12be12bd12bc12bb12ba12b912b8390812b712b633dc39c924da26643f143f8e12b512b412b312b212b112b012af12ae4fd112ad,
  0x4dd64dd512d112d012cf12ce4dd712cd24ed36cf3bd212cc4dd3269212cb4dd43c094dd24dd112ca12c912c812c72c68376b12c6268e12c512c412c3,
  0x12ea12e912e812e712e612e512e44ddb12e312e212e112e012df12de12dd12dc4dda12db12da12d912d812d74dd94dd812d612d512d43f8812d312d2,
  0x317a12fd323112fc39c812fb12fa12f912f812f73cc012f612f54fda2ba412f4274512f312f212f112f012ef12ee12ed3cd012ec27e332f04fd812eb,
  0x1310130f2ace4f0f130e130d130c130b130a1309130813073ec81306130513041303130231661301242f130033352430242e2427410a27d312ff12fe,
  0x13261325132413234f154f164f14132213211320131f131e131d131c4f11131b131a13194f131318131713164f1213154f1013141313131238231311,
  0x4f1d23523c142ab113304f1e132f34954f1c132e28cd132d132c132b28a84f1b4f1a4f19132a32434f1833ed3160132931ac410636bc13284f171327,
  0x2bae41ef1340133f133e34a63f8238c8133d133c41ea133b133a133913383d5b13371336495a375913354f201334349b30c527011333133213314f1f,
  0x13503829134f134e39c025b32cf429fe355b495c3bd3134d134c134b2ac6134a35f6495b1349134813473a4e13461345134413431342495d2ac71341,
  0x39bb3ca734921361136028ad33f0135f135e135d3b3b135c135b4966135a496513592c3c1358381613571356135513541353391b4964496313521351,
  0x317613722a0413711370136f331d136e35e2136d136c136b136a4961509a13691368496033d813671366496213651364259c362113634967495f1362,
  0x3bf73ecb2a103eea3fa3137c3d6828a3137b137a137913782ae049704976137713762ddf496b137532262b714968137424f430d62fe332f4495e1373,
  0x138e138d288d138c138b138a496f4972287b496a49771389138849691387138613853195138424d1351b13831382138134a93b1a1380137f137e137d,
  0x3b1b49731398496d496c509b242213973d591396496e3812497849751395139449742f6213934035139213913259139033f124c533144971138f32d9,
  0x49e113aa3a5713a913a813a713a6356813a513a413a349e213a249dc3c1213a113a0139f49df139e139d49e0139c139b2d27139a139949793e4c33b8,
  0x13bc13bb49e613ba49eb3fb3281213b913b849e513b713b649e32af613b513b449db13b32d3913b213b113b013af13ae13ad27c913ac13ab30e249e7,
  0x13c649ea32df49e92bb613c549e82c4c49e413c424ff405a13c349de2d042cf3346613c249dd13c1303613c013bf3300345539042bb913be49da13bd,
  0x13d913d813d713d649ed293213d513d413d32f4c2ad313d213d133cb13d013cf49f613ce13cd49f413cc49f013cb49f313ca2e663efa13c913c813c7,
  0x49ec13ec13eb3a7413ea3d5a13e913e836153a9e13e713e6327213e513e438e613e313e213e113e013df49f513de13dd13dc2d452ab013db13da3dfa,
  0x3be34a0513f713f64a03293335db3ede2cee356413f5272a2b8c13f439b549ef2fef49ee2f5513f3383713f213f113f013ef13ee385249f249f113ed,
  0x140a3833301b14091408140749f83aa049f94060140614051404274449fc140314021401140013ff13fe2ae113fd13fc2aba13fb13fa3c9713f913f8,
  0x3cd6141d141c141b141a49ff14193d7414181417270449fd141649fa4a001415141414134a01383d1412325014111410140f140e36d4140d140c140b,
  0x143214311430142f3498142e142d142c142b142a142914281427509c385614263bec14252bb714241423142226571421361d1420141f2b7f141e267c,
  0x1440143f4a1024d03e55143e27de34b1143d143c3d80143b143a49f71439143836274a0214373d811436143549fe2cec143449fb40684a0414333e01,
  0x14544a1132ff1453145214511450144f144e144d144c31a7144b3d69144a144914482e8d14474a0f14461445296c144439a114434a06144239a71441,
  0x146a1469146814674a0b1466146514643ed6146314623a8914612b0b14604a0e4a0d145f145e145d145c4a0838eb145b145a14591458145714561455,
  0x148414833697390c148214811480147f147e147d147c147b147a1479147814771476147514744a07147314724a0914711470146f146e146d146c146b,
  0x4a2214991498302e1497149614954a1414941493149214911490148f148e3e0d4a20148d148c148b148a14892959148814874a0c2ced14862f241485,
  0x4a1a14aa4a1b326014a914a84a1c354d14a74a1e14a64a0a4a1314a5378814a414a314a214a13a4d14a0149f4a19149e4a18149d149c3cc4149b149a,
  0x14bd2a4514bc14bb4a1d14ba4f633838406514b92b7714b84a1f14b714b614b5405f14b414b314b2273814b114b014af14ae4a2125d714ad14ac14ab,
  0x4a2814cf14ce14cd14cc272514cb14ca14c914c814c714c614c514c414c314c2381b245414c130cd2f4530c814c04a1730f74a154a123fa214bf14be,
  0x14e614e54a273bfc2f6d14e414e314e230a614e114e014df14de14dd4a2e14dc14db33d614da14d914d833a414d714d614d514d414d314d214d114d0,
  0x14fb14fa3edb14f936eb14f84a2914f74a1614f630fb4a2d4a2f14f514f414f314f24a2614f114f014ef322714ee14ed14ec14eb14ea14e914e814e7,
  0x1513151215111510150f150e3990150d4a2b150c150b150a4a254a2415091508150715061505150415033c1915021501150014ff14fe14fd14fc4a2a,
  0x152a15291528258c381f152715261525152415231522300915211520151f4a23151e151d151c30b7151b3464151a1519151833021517151615151514,
  0x153d33234a314a32153c153b4a302595153a1539153825a915371536153515341533153215314a3515304a36152f4a33152e152d152c4a2c152b4a34,
  0x1558155715561555155415534a99155215511550154f154e3e41154d154c154b154a2f3e1549154815471546154515441543154215411540153f153e,
  0x1570156f4a98156e156d156c156b156a15694a9c15682c2d1567156615651564156315624a9a156115604a9b155f155e2365155d155c155b155a1559,
  0x158915881587158615851584158315824a9d4aa015814a9f1580157f157e157d157c157b157a157915781577157624534a3715751574157315721571,
  0x15a515a415a315a215a115a0159f159e159d159c159b159a1599159815971596159515941593159215911590158f158e4aa14a9e158d158c158b158a,
  0x15bf15be4aa315bd15bc15bb15ba15b915b815b74aa44aa215b615b515b415b315b215b115b015af33ce15ae15ad15ac15ab15aa15a915a815a715a6,
  0x15db15da15d915d815d715d615d515d415d315d24aa515d115d015cf4aa615ce15cd15cc15cb15ca15c915c815c715c615c515c415c315c215c115c0,
  0x15f615f515f44aa815f315f215f115f015ef15ee15ed15ec15eb15ea15e915e815e715e64aa715e515e42a2f15e315e215e115e015df15de15dd15dc,
  0x24f03e2f160940591608160716062dc916053e47302816041603160216012b9d271d160031ab500a2bbb15ff15fe15fd15fc15fb15fa15f915f815f7,
  0x4fea4fe8161b161a3fa0161916184fe92e7e35231617258f1616161516143bf6161316121611264f30ac1610160f160e4e6e160d160c160b160a4fe7,
  0x4feb162e273a3ebf4fed162d162c162b245d162a4fef16292dc1331138282deb4fee162816271626162516241623162216211620161f161e161d161c,
  0x2f542af3164216411640163f163e163d163c163b163a16391638163716364ff116353011163416331632163138672f4437634fec1630162f25be2ff5,
  0x391016541653165216511650164f164e3a4c164d35392d443835164c2bad4ff036042886164b2e81164a1649164816473beb1646164516443fc71643,
  0x2b8b166b4ff3166a16694ff2166816671666166516642ac53be81663166216611660165f165e165d165c165b165a165928bc16581657165633221655,
  0x168116804ff63c054ff5167f167e167d167c167b167a167916782d0016771676167516741673167216711670166f166e166d28ac2419500b166c4ff4,
  0x169a169916982c6e16972b9816964ffc16951694169316924ffa16911690168f168e168d168c168b168a168916881687168616851684352c16831682,
  0x16b13fc816b016af16ae16ad16ac4ff93eec500c16ab317516aa16a916a816a716a635e616a54ff816a416a316a216a116a0169f169e169d169c169b,
  0x16c816c716c63b3d16c516c416c316c216c13a4b16c016bf16be16bd16bc16bb35ee16ba16b94ffe16b84ffd16b716b616b516b44ff74ffb16b316b2,
  0x16df16de16dd500216dc16db16da16d916d816d716d6500336d916d516d416d316d216d139da4fff16d016cf16ce354c16cd16cc16cb16ca3bcb16c9,
  0x16f816f716f616f516f416f3352d16f216f116f016ef16ee16ed16ec16eb16ea500d16e916e816e7500116e6500016e516e416e316e216e116e0235f,
  0x500617103e48170f170e170d170c5004170b170a170917081707170617051704170317023bff50051701170016ff16fe16fd300616fc16fb16fa16f9,
  0x172c172b172a17291728172717261725172417231722172150071720171f171e171d171c171b171a1719171817174351171617151714171317121711,
  0x1748174717461745174417435008174217411740173f173e173d173c173b173a1739173817371736173517341733173217311730172f172e172d240b,
  0x17591758495817573757175641041755275023773c8c29492df9175417531752234f4f2717511750174f32f7174e4039174d5009174c174b174a1749,
  0x322b176d4e9f176c32da176b3bdf176a17694f261768176717664f2517651764176317624f2432fd17611760175f238733a1175e175d175c175b175a,
  0x1780177f177e39e33841177d177c177b3456177a1779362b177817774ea14e9d177617751774177339d41772323a4ea017711770176f2f4f322e176e,
  0x17941793179217911790178f178e178d178c4ea8178b178a4ea717894ea617884ea527d4178717861785178417834ea4178217812f683a4f4ea34ea2,
  0x3d6747ee47ed404717a847ec17a717a617a547eb288b17a447ea351f17a317a217a117a0179f179e179d179c179b179a179917984e9e179717961795,
  0x2a0617bc17bb17ba17b947f317b82b0917b747f147f217b617b517b417b3241617b217b117b0272947ef2eb447f017af17ae17ad17ac17ab17aa17a9,
  0x1e7947f847fb47f73d973f0f47f536953a6427d51e781e7747f647f41e761e751e741e731e721e712d0d2aea1e7032751e6f1e6e17bf17be2dd617bd,
  0x48601e8d1e8c1e8b1e8a30131e891e881e8748621e861e851e841e831e821e8147fc1e8047fa1e7f1e7e1e7d1e7c2f48485e47fd1e7b2f6b47f91e7a,
  0x486b1e9b1e9a3a7a1e99486931633fc23b2a1e981e971e9648681e951e94486648611e931e924863486424df31881e911e901e8f485f251b48651e8e,
  0x1eb21eb1486d1eb01eaf1eae1ead1eac1eab1eaa1ea91ea81ea71ea61ea51ea43e0c2b761ea31ea21ea11ea04867486a4dcf1e9f1e9e2afc1e9d1e9c,
  0x380a48701eca1ec91ec81ec71ec61ec51ec41ec31ec21ec11ec0486f1ebf1ebe1ebd1ebc1ebb1eba1eb91eb8486e1eb71eb61eb51eb44dd01eb3486c,
  0x391c1f403d8c1f3f30c71f3e1f3d3b5f1f3c1f3b1f3a1f391f3848721f371f361f351f341f331f321f311f301f2f1f2e1f2d1f2c1ecd1ecc48711ecb,
  0x390d1f571f561f551f541f531f524c561f511f504c571f4f1f4e1f4d30e71f4c1f4b1f4a1f492dc61f481f471f461f454c541f441f434c531f421f41,
  0x1f6a1f691f681f671f664c591f654c5d1f641f631f621f6124c04c671f601f5f4c5b1f5e1f5d1f5c4c5c30201f5b3a792b824c551f5a1f5931701f58,
  0x4c601f7d1f7c1f7b1f7a3fbe1f794c661f781f771f761f754c611f741f731f721f711f701f6f1f6e4c5a287c4c581f6d3efb1f6c1f6b35e94c5e4c5f,
  0x34a51ff41ff31ff21ff11ff01fef1fee1fed1fec1feb1fea1f8b1f8a1f891f881f874c681f861f851f841f8323811f821f811f804c641f7f4c651f7e,
  0x200a200920082007200620054cd24cd3200420032002200120001fff1ffe1ffd1ffc37a14c691ffb1ffa1ff91ff84c63302f1ff71ff62f6e2f461ff5,
  0x201b201a201934a02018201720162015201432fa3334348c3014201320124c6f20114c7020104c71200f4c6a200e4c6e200d4c6c4c6d200c200b4054,
  0x20324cd54c6b2b044cd820314cd620304cd7202f202e202d202c202b202a2029202820272026202520242023202220212020201f201e201d4cd4201c,
  0x20a82049204820474cd93c1d204620452044204320422a34204120404cda203f203e203d203c203b203a203920382037203620352034203335d93561,
  0x20be20bd20bc20bb20ba20b920b820b720b64ce520b54cdd20b420b34ce120b220b120b04ce020af20ae20ad2fe620ac4cdf4cde20ab4cdb20aa20a9,
  0x20d720d620d520d420d320d220d120d020cf20ce20cd20cc20cb20ca4ce44ce34ce620c920c820c720c620c520c420c320c24ce220c14cdc20c020bf,
  0x20f320f220f14ce720f020ef20ee20ed20ec20eb20ea20e920e820e720e620e520e420e320e220e120e020df20de20dd20dc20db20da4ce820d920d8,
  0x21662107210621054e5e39b22104210321022101210020ff20fe390620fd3530238b33a520fc52ce20fb52cd20fa2a1e20f920f820f720f620f520f4,
  0x4e62217c4e61217b4500217a21792178217721762175217421733efe217221712170216f4e60216e216d216c216b216a21692168266233b421674e5f,
  0x4aaf218d242152cf2937218c37513d5e218b218a362a218921882187218621853629218421833859218236244633295b21812180217f217e4e63217d,
  0x219c2d2e5156219b219a51572199219825842197219621952194515421934c51219221912b785153219027403249218f273e218e36192c603d643858,
  0x21b0287f21af21ae21ad33dd30d121ac21ab21aa21a921a821a721a621a53b5451584359303321a421a321a221a1330621a0219f219e219d399c5155,
  0x2225222421c52cf521c421c3515b21c221c121c04c4f21bf21be21bd21bc21bb515a2bc621ba21b921b825c621b7515921b621b521b421b321b221b1,
  0x223322322d31236d530122313c1052fe32e8223052ff222f222e2dd3297e222d300552fd222c52fc222b52fb3ca6222a36d522292228222753c12226,
  0x24be530553085309223e223d223c2c3b2dd73844223b223a3f05530422392238265c5303530233985306530728bb2648223753003cbc223622352234,
  0x530c2fe0224e224d224c339b224b224a38db2249224827d02247530a2ae83fa122463c162245224422432242530b22412240351d2dbc3d533f77223f,
  0x267a53175315225e225d5314225c225b2433225a22592258225725b0225622555313381e225422532252225153102b892250530d5311530e224f530f,
  0x39a622712270226f5380226e531f531d531a226d531e226c226b226a2269531622682267226653192265531b2264226322622261531822605312225f,
  0x22805381227f227e227d3524227c227b53883ee5538b227a227953862278227753852276381a2450268a2275227436ca531c30352273538222725383,
  0x22f422f322f222f122f0539022ef538e22ee22ed22ec22eb22ea22e9538c234a22e822e722e622e522e422e322e2228353892282228153845387538a,
  0x230c2a3e230b230a23092308230723062305230453922303230223015391230022ff22fe22fd22fc22fb22fa3bc122f922f822f722f6538d22f5538f,
  0x231d3915231c231b52ca231a23492319231852c923172316296f2315231452c82b952d1b2313271b23123e4623112310230f237a2378230e271e230d,
  0x233553c4233453c33fba23332332339923312330232f232e232d232c232b232a232952cc232823272326232523242323232223212320231f52cb231e,
  0x23a52add2c693bed3ecc235c516623a423a33cc323a23d4a23a1331f3fa623a023413d762340233f31ae233e233d233c233b233a2339233823372336,
  0x50d323b927b7323823b823b723b623b523b423b323b223b1516723b023af23ae23ad23ac318623ab23aa23a9368f23a823a733032718295823a62ebb,
  0x23ca23c950d523c82e7723c7317750d850d723c623c550d423c423c3368e23c223c127f123c0330523bf23be50d63a8323bd23bc23bb3f8623ba315f,
  0x50dc23df23de23dd3bc23eba23dc50dd23db23da23d950da23d8319a3efd23d723d623d523d450d950db23d323d223d123d023cf23ce23cd23cc23cb,
  0x23f223f123f023ef50e223ee23ed23ec50e323eb3f0d405823ea23e923e83bfa23e7386023e650df2df12eb750de23e523e423e323e223e1318b23e0,
  0x246450e5246332395147246227d25146375a24612460245f245e23ff2dab50e423fe23fd23fc23fb23fa23f923f823f750e150e023f623f523f423f3,
  0x2479247825cd31a4247724762475514b5148410b514a24742473247227d824712470246f246e246d246c246b246a246924682467246624e42d252465,
  0x33a8248e248d4570248c514f514e248b248a248924882487248624852484248324822481248030f4514d247f247e3a5c5149514c247d247c247b247a,
  0x24a224a124a0249f5759249e5152249d3ec7249c249b249a249924985151249738d2249624955150249424932492375d249127203fca24903479248f,
  0x24bc24bb24ba24b924b853c5316724b724b624b5263c24b424b324b224b124b024af24ae24ad24ac435224ab24aa24a924a824a724a624a524a424a3,
  0x2eb6288239de2529252825272526509e2525509d25242523369c252225212520251f234c27e152562d0a251e2ddd251d5255251c3f7f24bd3cb036a5,
  0x50a750a625383c01253750a250a1403c25363bef2535332f50a32534253325322e7633eb2531253050a0252f252e252d252c252b252a35df30e8509f,
  0x50aa50a950a83e2b36182547254633bb25452544254333202542254150a550ae2540253f50b0253e3eff50b550ad253d50af253c253b253a50ab2539,
  0x2559255850b450b337612557255639dd255550b6255450b1255350b8255225512550254f50b7254e2a37254d254c254b254a263a25492f7a254850ac,
  0x2c782570256f256e256d256c256b256a2569352850b23d4d303150b9256825672566256525642563256225612560255f255e255d3a98255c255b255a,
  0x25e425e350bb25e2240d25e125e03794234e30b225df25de274625dd50bd25dc25db25da257b257a2579257825772576257533272574257325722571,
  0x382550c12c77332d25f425f325f225f125f025ef25ee25ed242b25ec50c325eb50c025ea50bf25e9275125e825e750be50ba50bc25e62739391225e5,
  0x26093304260826072606260526812f5b50c626042603260223962601260025ff265e25fe25fd326425fc25fb25fa25f950c225f825f725f625f52507,
  0x26222621262050c7261f261e261d321e261c261b261a2619261826172616261526142613261226112610260f50c5260e260d260c2e8750c4260b260a,
  0x2698263926382637263626352634263350c92632263126302cff262f262e262d262c262b262a2b922629262830162627262650ca262550c826242623,
  0x26b326b226b126b026af26ae26ad50cc26ac26ab26aa26a926a850cd26a726a626a526a426a326a226a126a0269f269e50cb269d269c269b269a2699,
  0x501633e226c7501526c626c526c426c333e3501426c2361626c12f72501336ab26c026bf26be26bd26bc50ce26bb26ba26b926b826b726b626b526b4,
  0x501f26d83a8c26d726d6501b26d5501d37993620403650185017501a26d426d3501c407926d226d1501926d026cf26ce26cd26cc26cb26ca26c926c8,
  0x502130b826ec26eb2d42420626ea26e926e826e726e6502026e52bc1271226e426e326e226e126e026df26de501e26dd2c4926dc26db26da26d933a6,
  0x276527642763276227612760275f275e275d5023275c275b275a275927582757275626f726f626f5293426f426f326f226f1502226f026ef26ee26ed,
  0x37683b44277a2ad9349027792f6c40ff3d882778277727762775277450252773277227712770276f276e276d276c276b276a27695024276827672766,
  0x4075278e278d278c278b278a278931932788278752582786278531a62e892784278327823fab278134a22780245b277f277e2962277d277c38e1277b,
  0x2bab27a03ca3279f279e2d1c279d279c279b279a27992798279725a12bc8279652592795525b27943f9d27933c0c348b279225ae525a27912790278f,
  0x27b43f9e27b327b2237f27b127b0526127af27ae27ad27ac27ab375b360327aa25a727a927a827a727a6525c27a527a4525e525f27a33a4427a227a1,
  0x52c2282a52c328292828282739ad2826282528242823282228212820281f281e281d281c281b281a28192818576a2817281625c828155260281427b5,
  0x379628412840283f283e283d52c4283c283b283a2839283828372836283528342833323b283228312830282f282e282d2976282c2bc72c632715282b,
  0x285d3bc7285c285b285a52c72859285828572856285528542853285228512850284f284e284d284c284b284a28492848284728462845284428432842,
  0x286c3fa43c81286b286a28693482286828672866286553992864539828633ec43487286238e25397264228612860285f285e2e985396539534a12dc4,
  0x28db28da28d928d8539f539d28d728d628d5539e28d4539b2ebd28d328d228732872539c2ea2287139b626752870286f286e2dc226492d18539a286d,
  0x28f628f528f428f32fe128f228f128f028ef28ee28ed28ec28eb28ea28e928e8303d28e728e628e528e428e328e228e128e028df28de28dd53a028dc,
  0x2d26290b290a2909290829072906539438d629052e65290429033ed92dbe2dbf29022901290028ff3ed528fe28fd36e728fc28fb28fa28f928f828f7,
  0x379c5524291e5520291d236b291c55225521291b291a2919295e2918551f29172916551e3fc6291529142913291229112910290f290e290d27e0290c,
  0x2930241e292f28ce552e552f292e292d292c552d292b5532292a292927282928552a29272926292555232429292429233b072922552629212920291f,
  0x552729a05535299f299e299d299c299b299a55312999303c29982c6c29975528299629952994299355302992552c29912990552b2931273155255529,
  0x29af29ae29ad553c29ac553929ab29aa553829a935e7553429a8553329a724fc29a6268929a538d93fd32eb3287729a429a355372d3529a2271f29a1,
  0x29c429c329c22c7b29c1345c29c029bf553b29be25ca29bd2ead29bc553629bb29ba553d553e29b929b8553a29b729b629b529b429b329b229b129b0,
  0x2a2b29d929d829d75544554829d629d529d429d3378e29d22bc924ca29d129d029cf553f29ce29cd2a0e29cc29cb29ca29c929c829c729c6554629c5,
  0x29eb29ea29e929e829e729e629e5554229e429e329e2554b29e129e03a8729df29de29dd2c865543554a554730de55455541554029dc29db29da5549,
  0x554f2a5e2a5d5550296e2a5c2a5b2a5a2a592a5830a52a57554c2a562a552a542a53554e2a522a512a502a4f339f40402a4e29ef29ee29ed554d29ec,
  0x2a752a742a732a7233282a712a702a6f2a6e2a6d2f6a2a6c2a6b2f3b2a6a2a692a6855532a672a662a65555255512a642a632a6226742a612a602a5f,
  0x2a8c2a8b2a8a55582a892a882a872a862a852a8455572a832a82555455592a812a802a7f26712a7e2a7d2a7c2a7b2a7a2a792a782a7755552a765556,
  0x2aa62aa52aa42aa32aa22aa12aa02a9f2a9e2a9d2a9c2a9b2a9a55bb2a992a982b9455bc2a972a962a952a942a932a9255ba2a912a902a8f2a8e2a8d,
  0x2b1d2b1c2b1b2b1a2b192b182b172b162c372b152b142b132b122b112b102b0f2b0e2b0d2b0c2aad55be55bf24db2aac2aab2aaa2aa92aa82aa755bd,
  0x31922b3a2b392b382b372b362b352b342b332b322b312b302b2f2b2e2b2d2b2c2b2b2b2a2b292b282b272b262b252b242b232b222b212b202b1f2b1e,
  0x55e72b522b512b502b4f2b4e2b4d2b4c28ae2b4b2b4a2b492b482b472b462b452b442b432b422b41406455e52f612b402b3f2b3e2b3d2b3c2b3b41f0,
  0x2b632ff72b622b612b6028b32b5f2b5e2b5d2b5c3fb53e1a2b5b55eb2b5a2b59378555ea55e855e92b582b572b563eca266f2b5533be2b542b532fe2,
  0x55f255f12bd12b0a2bd055f355f02bcf55f42bce2bcd2bcc55ef2bcb2bca2db055ee55ed2b6b2b6a267b2b692b682b672b662b652db155ec2ffa2b64,
  0x2be72be62be555f62be42be32be22be12be02bdf2bde2e7a3e3c2bdd2bdc318e2bdb2bda24f72bd955f5383029732bd82bd72bd62bd52bd42bd32bd2,
  0x2c022c012c002bff2bfe2bfd2bfc2bfb2bfa2bf92bf82bf72bf62bf53a582bf42bf356022bf22bf12bf02bef2bee2bed2bec2beb32eb2bea2be92be8,
  0x2d3b2c1c2c1b2c1a2c1937a22c1837832c172c162c152c142c132c122c112c102c0f2c0e2c0d2c0c2c0b2c0a2c092c082c072c062c052c042c0339ae,
  0x2c962c952c942c932c922c912c902c8f2c8e2c8d2c8c2c8b2c8a2c892c882c292c282c272c262c252c242c232f5c2c222c212c2040622c1f2c1e2c1d,
  0x2cb42cb32cb22cb12cb02caf2cae2cad2cac2cab2caa2ca92ca82ca72ca62ca52ca42ca32ca22ca12ca02c9f2c9e2c9d2c9c2c9b2c9a2c992c982c97,
  0x2cd02ccf2cce2ccd2ccc2ccb2cca2cc92cc82cc756032cc62cc52cc42cc32cc22cc12cc02cbf3b562cbe2cbd2cbc2cbb2cba2cb92cb82cb72cb62cb5,
  0x2d4c2d4b2d4a2d492d482d472d462ce72ce62ce52ce42ce32ce22ce12ce02cdf2cde2cdd2cdc2cdb2cda2cd92cd82cd72cd62cd52cd42cd32cd22cd1,
  0x2d682d672d662d652d642d632d622d612d602d5f2d5e2d5d2d5c2d5b2d5a56052d592d582d572d562d552d542d5356042d522d512d502d4f2d4e2d4d,
  0x2d862d852d842d832d822d812d802d7f2d7e2d7d2d7c2d7b2d7a2d792d782d772d762d752d742d732d722d712d702d6f2d6e2d6d2d6c2d6b2d6a2d69,
  0x2da42da32da22da12da02d9f2d9e2d9d2d9c2d9b2d9a2d992d982d972d962d952d942d932d922d912d902d8f2d8e2d8d2d8c2d8b2d8a2d892d882d87,
  0x2e202e1f2e1e2e1d2e1c2e1b2e1a2e192e182e172e162e152e142e132e122e112e102e0f2e0e2e0d2e0c2e0b2e0a2e092e082e072e062e052e042da5,
  0x2e3e2e3d2e3c2e3b2e3a2e392e382e372e362e352e342e332e322e312e302e2f2e2e2e2d2e2c2e2b2e2a2e292e282e272e262e252e242e232e222e21,
  0x2e592e582e572e562e552e542e532e522e512e502e4f2e4e56062e4d2e4c2e4b2e4a2e4928842e482e472e462e452e4458362e432e422e412e402e3f,
  0x2ed52ed42ed32ed22ed12ed02ecf2ece2ecd2ecc2ecb2eca2ec92ec82ec72ec62ec52ec42ec32ec22e632e622e612e602e5f2e5e2e5d2e5c2e5b2e5a,
  0x2ef22ef12ef02eef2eee2eed2eec2eeb2eea2ee92ee82ee72ee6407e2ee52ee42ee32ee22ee12ee02edf2ede2edd2edc2edb2eda2ed92ed82ed72ed6,
  0x4c14399835432c564bb34bb22c3f3e154bb13a6e4bb02af94baf2dc54bae2f002eff2efe56072efd2efc2efb2efa2ef92ef82ef72ef62ef52ef42ef3,
  0x4c1b238e4c1a3faa3f843a5b361f407c2ff64c194c184c173a824c1632dd2f042f03289739ab3f9228aa30d740702f023242296a35e34c1526582f01,
  0x2c314c232c55383937922f063b462df34c224c2138da2d112dfd30e44c203bc329892bb14c1f2f0535374c1e2d28354f23944c1d2db23ccc360b4c1c,
  0x4c312f4331a02c734c304c2f4c2e404d30c94c2d3ed7406e4c2c4c2b2f0825cc24204c2a319b3991362d4c284c27265b4c264c253b592f074c243b58,
  0x4c414c404c3f4c3e4c3d25154c3c2f0b28bf4c3a4c3b29504c393e0e4c38243f30c327352b854c374c362f0a4c3527e54c294c344c332f092c324c32,
  0x2f15551a2f142f132f122f112f102f0f2f0e35222f0d29682f0c55194c4d2d104c4c4c4b4c4a4c494c4835f84c474c464c454c4437a03d424c434c42,
  0x515d2f86515e2f852f842f832f8228762f81515c30db2f802abe41392f212f20391f2a2d2f1f2f1e2f1d2f1c2f1b2f1a2f192f182f172f16551c551b,
  0x2f9a51652f992f982f972f9651632f952f942f932f9251612f9136dd51622f902f8f3f982f8e2f8d2f8c40823eed51602f8b2f8a2f892f882f872376,
  0x55df2fb12fb030262faf2fae2fad2fac2fab29722faa2fa92fa82fa72fa6317b2fa5346f2fa43c112fa32fa22fa12fa02f9f2f9e2f9d2f9c51642f9b,
  0x2fc52fc4298f42092fc32fc22fc12fc02fbf55e42fbe55e355e22fbd2fbc2fbb2fba2fb92fb82fb755e12fb62fb5352b2fb42fb33a7e2fb255e03b40,
  0x2fd8347f2fd72fd655fb3a8b2fd52fd42fd32fd22fd155fa2fd03ccb2fcf53932fce2fcd2fcc2fcb25bc2fca2fc92fc839b12fc755f92fc63d8b4ae8,
  0x304a3049304830475601304623602abf30455600304430433042304155ff3040303f55fe55fc303e2fdf2fde55fd267d272b2fdd2fdc2fdb2fda2fd9,
  0x298c53c7305953c63058324630573056374e280d53d230553054305330524e753ef64f0e2e7f30512f503c883050304f304e3cca2880304d304c304b,
  0x280f306853d1306730663065306430633062330c53cf53d053ce53cd53cc3061306053cb305f53ca305e305d305c53c9305b305a23733e1e2ad153c8,
  0x307830773076307553d63f85303a300330743073307253d53071307053d4326d306f306e29f1306d26f9306c25b7306b306a3775458c3c8b53d33069,
  0x3090308f308e308d308c266853d8308b308a3089308830873086308530843083308230813080307f307e2de0307d33ad307c307b307a2fe9307953d7,
  0x31022c2a2f603101355331003eef376c30ff3cbb378b30fe30fd5098509930fc309d309c309b309a3099309830973096309530943093309253d93091,
  0x4f3128912c703110310f310e289d28c7310d3f802a1825814f2a310c295f4f2b296927dc310b3fb7310a3b05310931084f2c31073106310531043103,
  0x311c311b311a26ff31194f3b399d4f3a3b133ee43fac36254f2f4f2d311828a1311731164f34311531144f3331133d984f3031122e92235a4f323111,
  0x4f35312b53c24108312a31292b0731283127239c4f4036914f3933164f3c31264f3e330d312531243123312231213120311f380e4f3d2412311e311d,
  0x3137313631353f81313431333132313132554f4831302358312f3b39312e2d01312d4f43297d4f474f423ca52eab312c4f444b754f414f384f374f36,
  0x314631453144314331424f4d31413140313f2d0c313e4f4f313d24ce313c420432de4f4a324d33df3e394f464f45313b313a2c4230f3313931382679,
  0x31bb31ba315b3397315a31593158315731562ff231554f4c3154315331524f5038f83151293d3150314f4f4e314e314d314c314b314a314931483147,
  0x31cd31cc31cb31ca31c94f564f5531c831c731c6391a346e4f5331c5293e294031c431c331c24f523c952f3131c14f5131c0385c31bf31be31bd31bc,
  0x4f5b4f5a325e3a7c294a31dd31dc31db31da4f5431d931d84f573c1b31d7356a4f5c31d631d531d44f5931d34f5d31d23b2931d131d031cf31ce4f58,
  0x382e31f131f0244b31ef31ee31ed31ec31eb31ea4f6231e9297131e831e731e631e524cf31e44f6031e331e231e131e031df4f6131de239338ef3843,
  0x32083207320632053204320335f432023201320031ff31fe31fd31fc31fb4f6531fa332931f94fcb31f831f74f6431f631f531f431f331f23a48321d,
  0x327b327a3279327832193218321732163215321432134f6632124f6832113210320f3cb9320e320d3d52243a4fca38f5320c320b320a32094f69489c,
  0x32923f973f9632913290328f328e328d25cf55c4328c4067328b328a4e5d32893288328725973286328532843283328232813280327f327e327d327c,
  0x32a336d332a2551d32a132a03610360f329f329e329d329c329b3d7a2dd055c3329a55c255c13c85329955c032982dcf3f0032973296329532943293,
  0x24f22ce955ca32b155c9238455cc2aca32b055cb32af32ae32ad32ac55c855c755c632ab3fb039cd32aa375f487332a932a832a732a632a532a4385b,
  0x55d532c132c032bf55d432be55d332bd38ce32bc32bb55d232ba32b932b832b732b655d132b532b455ce32b3264555cd3a7224cd27fb55d055cf32b2,
  0x333933383337333632d755d832d632d532d432d332d232d132d032cf55d732ce32cd32cc32cb55d632ca377d32c932c832c732c632c532c432c332c2,
  0x3d8e440033474113334633453344440233432d213342334143fe234d43fd3340333f3cb243fc333e333d333c333b4aec3bfd35da333a2c712ffb55f7,
  0x44144401335430a82d2d441b3353335244163351441833503f7a39c4334f334e4406440e4405334d334c334b334a315d4404334943ff440336053348,
  0x39923360335f4419335e335d4413335c335b44093bde335a33593358348e4408440f335733564415288f33552b73440a3b1f4410236628a544074417,
  0x3565441f440d3367441c442e2a05239b336644222e8433653364442531a23363442f380f442844243e1033623780441a24f144124411440c3361440b,
  0x2889316a4055337a33793378337733764427337533b03374441e337333724423337133703d3d336f241c336e336d336c35ea336b336a336933682ea3,
  0x33883387338633853384443044a9442a3383338244413381442d442c3380337f4429337e44202daa337d4426337c337b441d44344421442b31643484,
  0x33f533f4339544363394444435543548339325053ccd44374445339244383391443b339044432504315e338f338e265d2c74338d338c338b338a3389,
  0x3406443344322c5d340534043403340234012f7434002b8f44312c7f443c33ff33fe33fd33fc33fb24fa33fa443d2da833f933f8443e33f733f64440,
  0x44bd3410340f44b02ad6340e340d340c340b340a340934083c8644ae44ad44ab3cce44ac44aa44a83d46444644472bb2354a3407270b4442443f443a,
  0x342544be342434233422342144b544353420341f341e35de341d341c341b341a2f733419341833c344b7341734163415341434133412341144bb44b8,
  0x2bbc44b9343444b244b12fea2f3444af3433343234313430322344b444ba44c0342f342e342d342c342b342a342944b3342844bf342744b644393426,
  0x344544d134443443344234412ad73440343f2dff343e2dda343d343c2a0c343b44d8343a3439343844c344d934373436316244c2343544c13d4344bc,
  0x34b42899302144db34b334b234533452345144d733c53450344f344e44c5344d344c344b44dc24c144d2344a44ca24e834493448344744c6344644cc,
  0x44cf34c544d3399333b1318344c934c434c334c234c144d034c0383a44d434bf44c434be34bd34bc44cb34bb34ba34b944d644d534b834b734b634b5,
  0x34db34da34d934d834d734d634d535693a9744da3d453d4434d434d334d234d134d034cf30d944cd34ce34cd34cc44c834cb34ca34c934c834c734c6,
  0x34f434f334f234f134f034ef34ee44e834ed34ec34eb34ea34e934e834e734e630e144e734e534e434e344ce34e234e134e034df34de34dd44ed34dc,
  0x2b06350844e93507350635053504350327c2350233c43501350034ff34fe44dd298144df44e034fd3fcd34fc34fb34fa34f934f844de34f734f634f5,
  0x44e544e344e235783577357635752730357435733572357135703511351044e4350f44e6350e44ea2ebe350d44e1350c2669350b350a350944ee3e3a,
  0x358f358e358d358c358b358a44f93589358835873586378d358535843184358344fc358235813580357f357e357d357c357b44ec357a44eb2cf63579,
  0x35a33b4f35a235a144ef35a044f6359f44f3359e359d44f744fa3f0b359c359b359a44fb359933c63598359741323596359535943593359235913590,
  0x44fe35b635b544f82c4435b42f3735b335b235b135b035af35ae242c35ad35ac44f435ab379d44f135aa35a944f035a835a744f5354935a635a535a4,
  0x35ce35cd456835cc35cb456935ca35c935c835c735c635c535c435c335c235c135c0450235bf35be35bd332535bc35bb35ba35b935b844f244fd35b7,
  0x45043644364336423641399a3640363f3ef8363e363d363c30f8363b31aa363a36393638363744ff3636363536343633363236313630362f362e35cf,
  0x242d234b45674505450345013471365836573656365536543653365236513650364f36cc3261364e364d364c364b364a364936483647364624e93645,
  0x3670366f456a366e366d4566366c366b366a3669366836673666366536643663366235602cfd456b36613660365f365e4571365d365c365b365a3659,
  0x457836883687368636853e25368445723683368236813680367f367e367d367c367b456c367a36793678456d36773676367536743673456e36723671,
  0x36fd36fc36fb36fa36f936f836f736f6457736f536f436f336f236f136f036ef457636ee457b240036ed36ec368d368c368b2f5a368a36894573456f,
  0x3713371237113710370f457e36da4579370e370d370c3b1e370b4575370a3709370845743707370637053704370337023701457a3bc5370036ff36fe,
  0x457f372a372931a524f5372837273726372537242d2c3723372237213720371f371e371d4580371c371b371a3719371837173716457c3715457d3714,
  0x37443743374237413740373f373e373d287d373c373b373a373938423738373737363735373437333732458137313730372f372e372d372c32f1372b,
  0x37bd37bc37bb37ba37b937b837b737b637b537b4458437b337b237b137b037af458237ae37ad37ac3e3e37ab37aa374b374a37493748374737463745,
  0x37d737d637d537d4458537d3458337d237d137d037cf37ce37cd37cc37cb37ca37c937c837c737c637c537c437c3458637c237c137c037bf321b37be,
  0x37f337f237f137f037ef37ee37ed37ec37eb37ea37e937e837e737e637e5458737e437e337e23ed137e137e037df37de37dd37dc37db37da37d937d8,
  0x38083807380638053804380338024f283801380037ff3d7837fe37fd37fc3b4a37fb37fa37f937f837f7544c37f637f530c432e730af2b6d544b37f4,
  0x3876387538743873387230e93cac36a1544f3a5d378f5451545254502af438713870386f386e386d386c386b369a386a3869544e3868544d25c13809,
  0x388a3e4254593889388838873886388554573be038843883388238813880387f24ec387e545b387d387c387b387a387954542397545539a838783877,
  0x389b389a38993fd0389838973896389538945462389338923891545d545f54673890388f546354615464388e388d5456388c545a545c54535458388b,
  0x38a938a85471546f38a738a63fc038a53903547238a438a338a22ba238a138a05473546d54665460389f389e27072a155465389d360e34ac389c545e,
  0x38bb27ff38ba38b938b838b73d57547638b638b538b45470546c546a54693ef438b330f6546b38b238b138b0546838af38ae38ad38ac298338ab38aa,
  0x392831963927548039263f7e39b438c738f038c6546e3bf038c538c438c338c2547938c138c05478547a5477547538bf38be38bd547428b738bc36de,
  0x547c393b393a3939548639383937548339363935548439343933547f393239313930392f5485392e392d392c547e392b547b54892f30392a3929547d,
  0x5496394f2b93394e394d394c5492394b394a394939483b0c3947548f39463945251254823d4739443943394239413940393f393e54875481393d393c,
  0x3965275239642b08396339623961548e39605490395f395e395d395c395b395a3959395854975495549339573956548d395539543953395239513950,
  0x39783977549839763975397439733972354b397154913970396f54fd396e396d54fe396c55015488396b396a3969548b548a5494548c396839673966,
  0x550639ec39eb39ea549939e954ff5504550239e839e7549a39e639e539e43985398439833982398131b33980397f397e397d397c397b397a55003979,
  0x550a3a023a013a0039ff39fe5507550c39fd39fc39fb54fc39fa39f939f839f739f6550b39f539f4550939f339f230da39f139f039ef39ee550539ed,
  0x3a1955103a183a173a16550e3a153a143a133a1255033a113a103a0f3a0e550f3a0d3a0c3a0b3a0a550d3a093a083a073a063a053a043a035508549b,
  0x3a333a323a3155143a303a2f3a2e3a2d3a2c3a2b42083a2a3a293a283a2755133a263a253a243a233b183a223a213a203a1f3a1e3a1d3a1c3a1b3a1a,
  0x3aa93aa83aa73aa63aa53aa43aa33aa23a43265955163a423a413a403a3f3a3e55153a3d3a3c3a3b3a3a551135553a3955123a383a373a363a353a34,
  0x3ac13ac03abf3abe3b2755c53abd3abc3abb3bc93aba3ab93ab855183ab73ab655173ab53ab43ab33ab23ab13ab051683aaf3aae3aad3aac3aab3aaa,
  0x3ad53ad424d653a13c9f47e82aef3ad33ad23ad13ad03acf3ace3acd3be23acc2d1d3acb3aca3a713ac93ac83ac73ac63ac53ac43bfb3b313ac33ac2,
  0x55da23613ae453a63e053ae353a555d953a43ae23ae13ae03adf3ade3fa93add3adc3adb3ada53a33ad937503ad842013ad7259f35ef3ad653a2244c,
  0x3afb53a73afa3af93af83af73af639073af53af43af33af23af13b453af03aef3aee38243aed3aec3aeb3aea33123ae926953ae83ae755db3ae63ae5,
  0x24e03b703b6f3b6e3b6d53aa3b6c3b6b3b6a3b6953a93b683b673b663b653b6429353b633b623b613a513b60241a3b013b003aff3afe3afd3afc4202,
  0x55dd3b833b823b813b803b7f352a55dc3b7e3b7d3dfc3cbe3b7c42053b7b3b7a3b7953ad3b783b773b763b7553ab3b743b7353a840433b723b713010,
  0x3b9553b23b943b932a4b30e03b923b913b90331836003b8f53b053b53b8e3b8d3b8c3b8b3b8a3b893b8853b33b873b8653af2ea653ae53ac3b853b84,
  0x53b953b153b73baa3ba93ba83ba73ba653b8239e3ba52ae33ba43ba33ba23ba13ba053ba3b9f3b9e3b9d3b9c3b9b3b9a3b992a223b983b973b9653b4,
  0x3c1f3c1e3bbf53bd3bbe53bb3bbd3bbc3bbb4ab43bba3bb93bb83bb753bc38f13bb63bb53bb43bb3355d3bb23bb13bb053b63baf3bae3bad3bac3bab,
  0x3c3b3c3a3c393c383c373c363c353c343c333c323c313c303c2f3c2e3c2d3c2c3c2b3c2a3c293a883c283c2753be3c263c253c243c233c223c213c20,
  0x3c563c553c543c533c523c513c503c4f3c4e3c4d3c4c3c4b3c4a3c493c4853bf3c473c463c453c443c433c422d3a55de3c413c403c3f3c3e3c3d3c3c,
  0x3c6f3c6e3c6d3c6c3c6b3c6a3c693c683c673c663c653c643c6329433c623c6153da3c603c873c5f39dc3c5e3c5d3c5c53c03c5b3c5a3c593c583c57,
  0x3ceb3cea3ce93ce83ce73ce63ce53ce43ce33ce23ce13ce03cdf3cde3cdd3cdc3c7d3c7c3c7b3c7a3c793c783c773c763c753c743c733c723c713c70,
  0x4e9a4e993cfc4e984e974e962dfa2f414e9536c031942a353cfb2a2a2c843cfa3cf93cf83cf73cf63cf53cf43cf33cf23cf13cf03cef3cee3ced3cec,
  0x3d0f3d0e57373d0d3d0c3d0b3d0a263e57363d092d293d083d073d063d0556d33d0456d53d0356d43d023d013d0056d23cff3cfe3cfd2d0e4e9c4e9b,
  0x3d293d283d273d2641f93d253d243d233d223d213d203bf33d1f3d1e3d1d3d1c3d1b3d1a3d193d183d173d163d153d144fdb3d133d123d1157383d10,
  0x3da53da43da33da23da13da03d9f3d9e3d9d3d9c3d9b3d9a3d3b3d3a3d393d383d373d363d353d343d333d323d313d303d2f3d2e3d2d3d2c3d2b3d2a,
  0x3dc23dc13dc03dbf3dbe3dbd3dbc3dbb3dba57393db93db83db73db63db53db43db33db23db13db03daf3dae3dad3dac3dab3daa3da93da83da73da6,
  0x3ddf3dde3ddd3ddc3ddb3dda3dd93dd83dd73dd63dd53dd43dd33dd23dd13dd03dcf3dce3dcd3dcc3dcb3dca3dc93dc83dc73dc63dc53dc43dc3515f,
  0x3e5a3e593e583df93df83df73df63df53df43df33ec93df23df13df03def3dee3ded3dec3deb3dea3de93de83de73de63de53de43de33de23de13de0,
  0x3e753e743e733e723e713e703e6f3e6e3e6d3e6c3e6b3e6a3e693e6836b13e673e663e653e643e633e623e613e6038453d993e5f3e5e3e5d3e5c3e5b,
  0x3e933e923e913e903e8f3e8e3e8d3e8c3e8b3e8a3e893e883e873e863e853e843e833e823e813e803e7f3e7e3e7d3e7c3e7b3e7a3e793e783e773e76,
  0x3eb13eb03eaf3eae3ead3eac3eab3eaa3ea93ea83ea73ea63ea53ea43ea33ea23ea13ea03e9f3e9e3e9d3e9c3e9b3e9a3e993e983e973e963e953e94,
  0x3f2d3f2c3f2b3f2a3f293f283f273f263f253f243f233f223f213f203f1f3f1e3f1d3f1c3f1b3f1a3f193f183f173f163eb73eb63eb53eb43eb33eb2,
  0x3f4a3f493f483f473f463f453f443f433f423f413f403f3f3f3e3f3d3f3c3f3b3f3a3f394ab73f383f373f363f353f343f333f323f313f303f2f3f2e,
  0x3f673f663f653f643f633f623f613f603f5f3f5e3f5d3f5c3f5b3f5a3f593f583f57573a3f563f553f543f533f523f513f503f4f3f4e3f4d3f4c3f4b,
  0x3fe33fe23fe13fe03fdf3fde3fdd3fdc3fdb3fda3fd93fd83fd73fd63fd53fd43f753f743f733f723f713f703f6f3f6e3f6d3f6c3f6b3f6a3f693f68,
  0x3fff3ffe3ffd3ffc3ffb3ffa3ff9339e3ff83ff73ff63ff53ff42db43ff33ff23ff13ff03fef3fee3fed3fec3feb3fea3fe93fe83fe73fe63fe53fe4,
  0x401d401c401b401a4019401840174016401540144013401240114010400f400e400d400c400b400a4009400840074006400540044003400240014000,
  0x3bd53cc63bd4402c33f242753534383f427442732c2e3540294d27be2c4f4272402b402a4029402840274026402540244023402240214020401f401e,
  0x26633fb4427b3f06378a3ec0402f36a3407a33b5427a42793f792dfc2896361728c0377a402e30d828043b4e42783be7427742762baf2cf9402d2c50,
  0x2d32403142894288250c3a8d295442873cc53bce2a3d4286428527052b7b42843fc425aa428342823698428136c14280427f427e3cc84030427c427d,
  0x403238214294404e30014293274e42923758429142902e91289f428f27d632ec428e3fc3349e428d377b3760428c2bb03d70428b39d8428a3d8a39c1,
  0x42a4345e42a3239a3c823b1c42a242a142a04033429f3190429d3c07429c429e2514429b429a429939a2429842973b1442962b9c27544295322a3cc7,
  0x409e409d409c409b2bb8409a409940984097409640954094409340922a1742ac42ab346742aa42a933cc2f3f42a842a7382031b842a642a5315c2d3e,
  0x40b42b8a3a9640b340b240b140b040af40ae4f4b40ad40ac40ab40aa569040a940a840a740a640a540a440a340a2390a40a140a05612409f561127ce,
  0x40cc40cb40ca40c940c840c740c6250f240956cb40c540c440c340c247d840c140c040bf40be40bd40bc40bb3dfe2acd40ba40b940b840b740b640b5,
  0x40e340e240e140e040df40de40dd56cf40dc40db40da56d040d940d840d740d640d540d440d3316d40d256cd2ade40d140d040cf56ce40ce40cd56cc,
  0x415f415e415d415c415b415a415941584157415641554154415341524151415040f140f040ef40ee40ed40ec40eb40ea40e940e840e740e640e540e4,
  0x417d417c417b417a4179417841774176417541744173417241714170416f416e416d416c416b416a4169416841674166416541644163416241614160,
  0x419b419a4199419841974196419541944193419241914190418f418e418d418c418b418a4189418841874186418541844183418241814180417f417e,
  0x42174216421542144213421242114210420f420e41af41ae41ad41ac41ab41aa41a941a841a741a641a541a441a341a241a141a0419f419e419d419c,
  0x2a4238624e884e872c8328742a303fd12a09244033ab3819288a3f9f2bc03ee2237d3a703e4924e32a00421d294b3f012413421c421b421a42194218,
  0x4896421f421e266635fc36d74e9227d92944360d4e904e8f4e914e8e4e8d405d3e3830b5301d4e8c2baa2c5f4e8b3e4d4e8a2ae528a4316e26944e89,
  0x4229407242284227561042262ae2422542244223560f3611422225bb29643d4935f33e5242213e37411e4124356d403f4e94404b42202f364e933319,
  0x423d423c423b423a34aa3e1642394238423742362587560b42354234259e4233423242314230422f422e422d422c422b33e529603eeb2941560a422a,
  0x42574256425542544253425242514250424f424e3515424d424c424b3834424a424942484247424642454244424342424241560c4240423f560d423e,
  0x2370426842674266426556a34264569b3e1742634262426156983f8f42605699425f569a425e5692425d425c569732f64076425b560e425a42594258,
  0x42d62eaa42d542d442d356aa56a742d242d142d0298b569f2de542cf56a2569e42ce42cd569d569c42cc426d426c426b3313426a56a156a04269274f,
  0x42e742e6569442e542e442e342e242e142e042df56ac42de56a927fa56a856a656a542dd2c8242dc386142db42da42d930b442d842d756a456932a41,
  0x42fb42fa56b2384842f942f856af2de656ae42f742f642f542f442f342f242f142f056ad42ef42ee42ed42ec380d42eb42ea25c742e93d5656ab42e8,
  0x430c56bc56bb56b5430b430a56b84309430856b456b643074306430556b743044303430256b9430156b356b1430056b042ff406c24e542fe42fd42fc,
  0x43214320431f431e431d431c431b431a569543194318431743164315431456be56bd4313431243114310430f380c56bf56ba270f4ab6430e430d384c,
  0x26734392439156c24390438f438e438d438c56c1438b56c4438a27ec432b56c056c3432a2501271c4329432856964327432624234325432443234322,
  0x43a956c943a843a743a643a543a443a343a256c743a143a0439f56c856c6439e439d439c439b439a4399439825d4439756c54396439543943e434393,
  0x43c1383243c043bf43be43bd43bc43bb43ba27f843b943b834ae43b743b629f9361c43b543b443b343b243b143b043af43ae43ad43ac43ab43aa56ca,
  0x43de43dd43dc43db43da43d943d843d743d643d543d44e5343d343d243d143d043cf43ce43cd43cc43cb43ca43c943c843c743c643c543c443c343c2,
  0x445a4459445844574456445544544453445244514450444f444e444d444c444b444a4449444843e943e843e743e643e543e443e343e243e143e043df,
  0x447844774476447544744473447244714470446f446e446d446c446b446a4469446844674466446544644463446244614460445f445e445d445c445b,
  0x4496449544944493449244914490448f448e448d448c448b448a4489448844874486448544844483448244814480447f447e447d447c447b447a4479,
  0x451245114510450f450e450d450c450b450a450945084507450644a744a644a544a444a344a244a144a0449f449e449d449c449b449a449944984497,
  0x355e30d34ddd403d4ddc45273b5a2a3b3e5725904526452545244523452245214520451f451e451d451c451b451a4519451845174516451545144513,
  0x4e4e45294ded2a442b9f24114dec2ffd29394deb2d164dea4de945282d154de83e314de734944de64de54de34de44de24de13fb64de04ddf4dde2af1,
  0x2447453324462445453245314530452f2f32452e452d452c24382660452b2a0b3b224e523ef54e513ece3a603e08470f36d1452a2c3628cb4e504e4f,
  0x454530f22a4c45443bd733ee45433d73345b45424541268830084540453f453e243e453d453c4ab8453b453a45394538355925984537453645354534,
  0x45524abf4abb4abd4551385f4550454f25b42feb398a3e0f2d3f454e3ef92b84454d454c4aba28884ab9454b2d433e24454a3d484549454845474546,
  0x4ac24ac3383c36b7377838f2455e455d404a455c455b455a2c2c2424318f4559455845574ac04556455536e345544abc2753455333bd27264abe4ac1,
  0x45c628bd4ac93e45378425ac36b245c52a3338cf45c4456527cf4ac8456438e5456327344ac63fc538df45624ac745614ac43bd63bc04560455f325f,
  0x27f245d945d83d7d45d7242530dc45d645d53cba45d44acb4aca45d345d245d145d045cf4acd26974acc45ce45cd45cc45cb45ca45c94ac545c845c7,
  0x45eb45ea45e945e84ad545e745e64ad33ca245e545e445e327174ad04acf4ad1280945e2244845e145e045df45de45dd3d9145dc45db4ace45da3797,
  0x4ad8460045ff45fe45fd45fc45fb45fa40844ad745f945f845f745f645f53ef13e3b45f445f345f245f14ad245f045ef3c8045ee34654ad445ed45ec,
  0x42c3461242c5461142c246104c52460f2722460e3cb5460d460c460b460a46094adc460846074ada46064605460446034adb4ad946023c1a243b4601,
  0x4071432c461f42ca360a42c842c9461e34a4432d2ab73d65461d42c6461c3b11461b461a4619238f4618461732403b3042c746164615461442c44613,
  0x4338468d468c468b4334468a3f784331432e2f4a4689468846872d034686468543334684432f4332468346823d8f46234622433046214620301942cb,
  0x469f2596469e469d469c469b433b469a2a484699433a4698469724dc3e20433546964695469443362e674693469246912acf433743394690468f468e,
  0x46b846b746b646b546b446b346b246b146b046af46ae46ad46ac46ab46aa433d46a9280a46a846a746a6433c27d146a546a446a346a226fd46a146a0,
  0x434146d0434246cf46ce46cd46cc46cb46ca46c946c846c746c646c54340433e46c446c346c2433f46c146c046bf46be242846bd46bc46bb46ba46b9,
  0x56165615331b405634a856133d6a474247414345474046e1434446e046df46de46dd46dc46db46da46d946d8434346d746d646d546d446d346d246d1,
  0x475225c547512f53567b4750474f474e378156172ab556785679474d474c38133e26474b474a28a6474947483b5047474746474547442dcb47435614,
  0x2670475e4080475d2655475c5683475b475a4759475847573269567e567d4756475547545681378c2ea431732d1456804753567f2cfb567a567c38d1,
  0x4773477247714770476f476e56885687476d476c476b476a47694768351a318c47674766476547644763476247613b32568656844760475f56855682,
  0x24e64789478847874786478547844783478247814780477f477e568f477d477c477b477a568d568e4779477847774776568c568b568a477547745689,
  0x479f479e479d479c479b479a479947984797293b4796479547944793479247914790478f478e478d2d37478c2ffe3c8d3fad2f70478b36ba3d6f478a,
  0x481b481a4819481848174816481548144813481248114810480f480e480d480c480b480a480948084807480648054804480348024801480047ff47fe,
  0x4839483848374836483548344833483248314830482f482e482d482c482b482a4829482848274826482548244823482248214820481f481e481d481c,
  0x48574856485548544853485248514850484f484e484d484c484b484a4849484848474846484548444843484248414840483f483e483d483c483b483a,
  0x48d348d248d148d048cf48ce48cd48cc48cb48ca48c948c848c748c648c548c448c348c248c148c048bf48be48bd48bc485d485c485b485a48594858,
  0x48f048ef48ee48ed48ec48eb48ea2c8148e948e848e748e648e548e448e348e248e148e048df48de48dd48dc48db48da48d948d848d748d648d548d4,
  0x490d490c490b490a4909490849074906490549044903575b49024901490048ff48fe48fd48fc48fb48fa48f948f848f748f648f548f448f348f248f1,
  0x498849874986498549844983498249814980575c497f497e497d497c497b497a491b491a4919491849174916491549144913491249114910490f490e,
  0x49a549a449a349a249a149a0499f499e499d499c499b499a4999575d499849974996499549944993499249914990498f498e498d498c498b498a4989,
  0x49c349c249c149c049bf49be49bd49bc49bb49ba49b949b849b749b649b549b449b349b249b149b049af49ae49ad49ac49ab49aa49a949a849a749a6,
  0x4a3f4a3e4a3d4a3c4a3b4a3a4a394a3849d949d849d749d649d549d449d349d249d149d049cf49ce49cd49cc49cb49ca49c949c849c749c649c549c4,
  0x4a5d4a5c4a5b4a5a4a594a584a574a564a554a544a534a524a514a504a4f4a4e4a4d4a4c4a4b4a4a4a494a484a474a464a454a444a434a424a414a40,
  0x4a7a4a794a784a774a764a754a744a734a724a714a704a6f4a6e4a6d4a6c575e4a6b4a6a4a694a684a674a664a654a644a634a624a614a604a5f4a5e,
  0x4a97575f4a964a954a944a934a924a914a904a8f4a8e4a8d4a8c4a8b4a8a4a894a884a874a864a854a844a834a824a814a804a7f4a7e4a7d4a7c4a7b,
  0x4b134b124b114b104b0f4b0e4b0d4b0c4b0b4b0a4b094b084b074b064b054b044b034b024b014b004aff4afe4afd4afc4afb4afa4af94af84af74af6,
  0x4b304b2f4b2e4b2d4b2c4b2b4b2a4b294b284b274b264b254b244b234b224b214b204b1f4b1e4b1d4b1c4b1b4b1a4b1957614b184b174b164b154b14,
  0x4b4e4b4d4b4c4b4b4b4a4b494b484b474b464b454b444b434b424b414b404b3f4b3e4b3d4b3c4b3b4b3a4b394b384b374b364b354b344b334b324b31,
  0x4bc84bc74bc64bc54bc44bc34bc24bc14bc04bbf4bbe4bbd4bbc583c4bbb4bba4bb94bb84bb74bb64bb54bb44b554b544b5357604b524b514b504b4f,
  0x4be64be54be44be34be24be14be04bdf4bde4bdd4bdc4bdb4bda4bd94bd84bd74bd64bd54bd44bd34bd24bd14bd04bcf4bce4bcd4bcc4bcb4bca4bc9,
  0x4c044c034c024c014c004bff4bfe4bfd4bfc4bfb4bfa4bf94bf84bf74bf64bf54bf44bf34bf24bf14bf04bef4bee4bed4bec4beb4bea4be94be84be7,
  0x4c804c7f4c7e4c7d4c7c4c7b4c7a4c794c784c774c764c754c744c734c724c134c124c114c104c0f4c0e4c0d4c0c4c0b4c0a4c094c084c074c064c05,
  0x4c9d4c9c4c9b4c9a4c994c984c974c964c954c944c934c924c914c904c8f4c8e4c8d4c8c4c8b4c8a4c894c884c874c864c854c844c834c824c815762,
  0x4cba4cb94cb84cb74cb64cb54cb44cb34cb24cb14cb04caf4cae4cad57634cac4cab4caa4ca94ca84ca74ca64ca54ca44ca34ca24ca14ca04c9f4c9e,
  0x51734cc751745172274d28834cc6517151703458516f516e516c516d27b93f02516b516a51694cc54cc44cc34cc24cc14cc04cbf4cbe4cbd4cbc4cbb,
  0x24c45181346251803461517f517e32dc517c517d517a517b2a0239be2e0034883e185179517829672414323f3fa8258927f051775176517529574cc8,
  0x4ccb5194519351924cca51915190518f518e518d518c518b4cc931683459518a302424c938633d6651892c6151885187407d51865185518451835182,
  0x3c9c2d095207520631b52986520551a3520451a251a14cce51a0519f3a56519e3eb8519d519c519b30be38d4519a4ccd519851995197519651954ccc,
  0x5218521752163b2028b9521552143b43521352122a4725d55210521137a33a9d520f2ff3520e520d4ccf33c1520c3fd2520b3cd5520a520952082516,
  0x27bc52275225522452263a6a4d302d3c4049265130dd522339e24cd15222522152204cd0521f31652686521e3ef7521d521c521b521a521938493562,
  0x4d35327052364d343f095235523452334d335231317927db5230522f4d32522e27e252543475522d522c522b5232522a4d315229522831872de72c85,
  0x524c524b524a524952485247300c524652454d385243524252442dba52414d375240523f523e523d4d36523c523b523a239829755239523832715237,
  0x4d4b4d4a4d494d484d474d464d454d44257f4d434d424d414d404d3f4d3e4d3d4d3c3a854d3b4d3a5253525252512fec52504d392f59524f524e524d,
  0x4d694d684d674d664d654d644d634d624d614d604d5f4d5e4d5d4d5c4d5b4d5a4d594d584d574d564d554d544d534d524d514d504d4f4d4e4d4d4d4c,
  0x4d874d864d854d844d834d824d814d804d7f4d7e4d7d4d7c4d7b4d7a4d794d784d774d764d754d744d734d724d714d704d6f4d6e4d6d4d6c4d6b4d6a,
  0x4e034e024e014e004dff4dfe4dfd4dfc4dfb4dfa4df94df84df74df64df54df44df34df24df14df04def4dee4d8f4d8e4d8d4d8c4d8b4d8a4d894d88,
  0x4e0b494731b1494639aa2a3a324f3eb93181494549442c6d49433a7349423563264c39af24344e0a494135f0494031804e094e084e074e064e054e04,
  0x42af29484e0f495649554e0e4954495349522f2c4e0d49512f3c251849503bf5494f494e494d494c3bea494b4e0c494a3e1d494949482adf2984287a,
  0x407b4e214e204e1f4e1e2d1e3f0a3cd23c13289342b24e1d4e1c355f4e1b4e1a4e1942b34e184e174e164e154e144e134e1242b042b14e1127e84e10,
  0x4e2e4e2d4e2c4e2b35f142b84e2a4e294e283a814e274e262cfc322930a74e2542b7259d30a130ba2c53294e4e2442b64e2338fa23434e2242b442b5,
  0x3a80383e302942bd4e3d42bc4e3c4e3b4e3a4e394e3842bb4e37331a3a783e2242ba4e364e3525d84e343e1327cd4e3342b94e324e314e30243c4e2f,
  0x4eb129854eb04eaf4eae3cdb37914ead42bf4eac37904e4d4e4c42be4e4b309e3d824e4a4e494e484e474e464e454e444e434e424e414e404e3f4e3e,
  0x493f4ec84ec742c14ec64ec54ec44ec34ec24ec14ec04ebf37984ebe4ebd4ebc4ebb4eba4eb94eb84eb74eb64eb53ee64eb44eb33a59235042c04eb2,
  0x4ed64ed525d657573d55265f4ed44ed352574ed22a1c2c383be43b3c4ed14ed03c0235294ecf324a575657554ece4ecd57544ecc4ecb2fe44eca4ec9,
  0x573e4eed4eec4eeb4eea3bc8573c3d854ee94ee84ee74ee64ee54ee44ee3575a4ee24ee14ee04edf4ede4edd4edc4edb4eda4ed927484ed84ed75758,
  0x2bbf4efe4efd4efc317457413f07573f4efb3a994efa4ef957403b494ef839d24ef74ef64ef54ef424014ef32f5830224ef24ef1573d4ef04eef4eee,
  0x4f7357444f724f714f704f6f4f6e4f6d4f6c4f6b4f6a4f0b4f0a3a5f4f0937554f084f074f064f054f0430174f034f0232574f014f004eff57425743,
  0x4f8b4f8a4f894f884f874f864f854f844f834f824f8157474f804f7f4f7e4f7d333023754f7c4f7b4f7a4f794f7830b34f7757464f764f7557454f74,
  0x4f9f4f9e411d4f9d4f9c31a1318d2e824f9b289a4f9a4f99273c4f982db74f974f962dbd4f954f94573b34934f934f924f914f904f8f4f8e4f8d4f8c,
  0x58044fb74fb64fb54fb44fb34fb24fb14fb058034faf4fae4fad4fac4fab23714faa3bc42d404fa94fa84fa74fa64fa54fa44fa34fa24fa129804fa0,
  0x580a502b502a2dd4502950284fc94fc84fc74fc64fc5347d4fc44fc34fc258074fc1580658054fc04fbf4fbe23514fbd3b0d4fbc4fbb4fba4fb94fb8,
  0x50445043504250415040503f503e503d503c503b503a50395038580c5037580b5036503558085034243d50335809503250315030502f502e502d502c,
  0x506250615060505f505e505d505c505b505a5059505850575056505550545053505250515050504f504e504d504c504b504a50495048504750465045,
  0x507650755074507350725071507036073e28506f3cd1506e506d506c506b506a2dc74ceb4cea4ce92ab85069353e3989506850675066506550645063,
  0x50f250f150f050ef50ee50ed50ec50eb50ea50e950e850e750e650875086508550845083508250815080507f507e507d507c507b507a507950785077,
  0x5110510f510e510d510c510b510a510951085107510651055104510351025101510050ff50fe50fd50fc50fb50fa50f950f850f750f650f550f450f3,
  0x512e512d512c512b512a5129512851275126512551245123512251215120511f511e511d511c511b511a511951185117511651155114511351125111,
  0x3c9051a951a851a751a651a551a4514551445143514251415140513f513e513d513c513b513a5139513851375136513551345133513251315130512f,
  0x38ee51ac33aa3ca0544151ab5440543f51aa2c5e543e2db633b9302b30aa3dfd53dd3777238553dc27ee2a1a390e4c623b4c375e3a9153db349d27ba,
  0x51b951b851b751b651b551b451b351b251b151b03518544a5449251951af5448544727365446544528033bf45444544351ae384b2e883d4c51ad5442,
  0x51d628ba51d551d451d351d251d151d051cf51ce51cd51cc51cb51ca51c951c851c751c651c551c451c351c251c151c051bf51be51bd51bc51bb51ba,
  0x51e951e851e751e651e55822487551e451e351e251e151e051df51de36a0289c51dd51dc51db4fd74fd633a351da51d94fd551d84fd44fd34fd251d7,
  0x5265526452635262520352025201520051ff51fe51fd51fc51fb51fa51f951f851f751f651f551f451f351f251f151f051ef51ee51ed51ec51eb51ea,
  0x52815280527f527e527d527c527b527a5279527852775276527552745273527252715270526f526e526d526c526b526a526924ea5268526758235266,
  0x529e529d529c529b529a5299529852975296529552945293529252915290528f528e528d528c528b528a528952885287528658245285528452835282,
  0x2c2b52b8487852b752b652b552b452b352b252b152b052af52ae52ad52ac52ab5825582652aa52a952a852a752a652a552a452a352a252a152a0529f,
  0x52c052bf32524882280b52be4881245c52bd2d0f52bc52bb488035352811487f52ba3772240436bb2ceb3cd8288c487e487d487c487b487a487952b9,
  0x532953285327532653255324532353223a8641f4410936c4488b488a488930f54888488730325321488653202513488552c12f2248842a2c3a7d4883,
  0x534553445343534253415340533f533e533d533c533b533a5339533853375336533553345333533253315330532f43f9532e532d52c6532c532b532a,
  0x5363536253615360535f535e535d535c535b535a5359535853575356535553545353535253515350534f534e534d534c534b534a5349534853475346,
  0x53df53de537f537e537d537c537b537a5379537853775376537553745373537253715370536f536e536d536c536b536a536953685367536653655364,
  0x53fd53fc53fb53fa53f953f853f753f653f553f453f353f253f153f053ef53ee53ed53ec53eb53ea53e953e853e753e653e553e453e353e253e153e0,
  0x541b541a5419541854175416541554145413541254115410540f540e540d540c540b540a540954085407540654055404540354025401540053ff53fe,
  0x5439543854375436543554345433543254315430542f542e542d542c542b542a5429542854275426542554245423542254215420541f541e541d541c,
  0x24d254ae34b025b63bd038fb3dff30ea54ad54ac54ab54aa54a954a854a754a654a554a454a354a254a154a0549f549e549d549c543d543c543b543a,
  0x33e44ba02e6854b254b13c0825ad4b9f54b04b9e2ab430e34b9d2d0554af30eb4b9c4b9b4b992c664b9a38fc40374b982dd94b974b9636a84b9530bc,
  0x54bd54bc54bb54ba54b954b854b72a164bad54b64bac3fbd4bab4baa30df4ba94ba84ab04ba74ba64ba535d654b54ba433a24ba354b454b34ba24ba1,
  0x54ce5819581854cd54cc54cb54ca54c9581654c854c758175814581554c654c554c4581354c3581254c22aae580f581154c154c054bf54be580d580e,
  0x582b54e554e454e354e2582954e154e054df54de582854dd582754dc54db54da54d954d854d7297054d654d554d454d3379354d2581a54d154d054cf,
  0x555b582f555a54fb54fa54f9406a54f854f754f654f554f454f354f2582c54f1582e54f054ef54ee54ed54ec54eb54ea54e954e8582a54e7582d54e6,
  0x5575557455735572583355715570556f5832556e556d556c556b556a556955685567556655655564583155635562556158305560555f555e555d555c,
  0x581b33bc581c2bb52ec0558a5589558855872a3c4aee5586558555845583558255815580557f40fb557e557d4356557c557b557a5579557855775576,
  0x55a155a0559f559e559d559c559b559a559955985597559655955594559332205592559158215590399f558f5820558e558d558c581e581f581d558b,
  0x561d561c561b561a5619561855b955b855b755b655b555b455b355b255b155b055af55ae55ad55ac55ab55aa55a955a855a755a655a555a455a355a2,
  0x563b563a5639563856375636563556345633563256315630562f562e562d562c562b562a5629562856275626562556245623562256215620561f561e,
  0x5659565856575656565556545653565256515650564f564e564d564c564b564a5649564856475646564556445643564256415640563f563e563d563c,
  0x56775676567556745673567256715670566f566e566d566c566b566a5669566856675666566556645663566256615660565f565e565d565c565b565a,
  0x56f356f256f156f056ef56ee56ed56ec56eb56ea56e956e856e756e656e556e456e356e256e156e056df56de56dd56dc56db56da56d956d856d756d6,
  0x57115710570f570e570d570c570b570a570957085707570657055704570357025701570056ff56fe56fd56fc56fb56fa56f956f856f756f656f556f4,
  0x572f572e572d572c572b572a5729572857275726572557245723572257215720571f571e571d571c571b571a57195718571757165715571457135712,
  0x57ab57aa57a957a857a757a657a557a457a357a257a157a0579f579e579d579c579b579a579957985797579657955794573557345733573257315730,
  0x57c957c857c757c657c557c457c357c257c157c057bf57be57bd57bc57bb57ba57b957b857b757b657b557b457b357b257b157b057af57ae57ad57ac,
  0x57dc576c240a57db576b57da57d9576957685767576657d857d7576530b057d6576457d557d43d7e57d357d257d157d057cf57ce57cd57cc57cb57ca,
  0x578057e4577f57e3577e577d577c577b577a2f7157795778577757765775577457e23a6d5773577257e157e057df57de5771577057dd576f576e576d,
  0x5793579257ed57ec57915790578f578e356b57eb57ea57e957e857e7578d578c578b578a57e62dad5789578857875786578557845783578257e55781,
  0x5858585758565855585458535852580257f357f25801301a580057ff57f157f057fe57fd57fc244d57fb57fa57f957ef57ee57f857f757f657f557f4,
  0x5876587558745873587258715870586f586e586d586c586b586a5869586858675866586558645863586258615860585f585e585d585c585b585a5859,
  0x58945893589258915890588f588e588d588c588b588a5889588858875886588558845883588258815880587f587e587d587c587b587a587958785877,
  0x591058b158b058af58ae58ad58ac58ab58aa58a958a858a758a658a558a458a358a258a158a0589f589e589d589c589b589a58995898589758965895,
  0x592e592d592c592b592a5929592859275926592559245923592259215920591f591e591d591c591b591a591959185917591659155914591359125911,
  0x594c594b594a5949594859475946594559445943594259415940593f593e593d593c593b593a5939593859375936593559345933593259315930592f,
  0x596a5969596859675966596559645963596259615960595f595e595d595c595b595a5959595859575956595559545953595259515950594f594e594d,
  0x59e659e559e459e359e259e159e059df59de59dd59dc59db59da59d959d859d759d659d559d459d359d259d159d059cf59ce596f596e596d596c596b,
  0x5a045a035a025a015a0059ff59fe59fd59fc59fb59fa59f959f859f759f659f559f459f359f259f159f059ef59ee59ed59ec59eb59ea59e959e859e7,
  0x5a225a215a205a1f5a1e5a1d5a1c5a1b5a1a5a195a185a175a165a155a145a135a125a115a105a0f5a0e5a0d5a0c5a0b5a0a5a095a085a075a065a05,
  0x5a9e5a9d5a9c5a9b5a9a5a995a985a975a965a955a945a935a925a915a905a8f5a8e5a8d5a8c5a2d5a2c5a2b5a2a5a295a285a275a265a255a245a23,
  0x3e0052d752d85aab3c0b5aaa3bdb52d652d552d452d352d25aa93bda32ef5aa831b452d12c2f52d0326a5aa75aa65aa55aa45aa35aa25aa15aa05a9f,
  0x52e95ab1332b52e85ab052e752e6352652e552e452e352e2280152e12dee52e052df5aaf2af552de297c5aae5aad52dd52dc52da52db52d938f95aac,
  0x5abe5abd52f952f752f652f552f452f352f252f15abc2ae452f05abb5aba5ab95ab852ef5ab752ee52ed52ec5ab6581052eb5ab552ea5ab45ab35ab2,
  0x5ad35ad2583a5ad15ad0583958385acf5ace5acd5acc58375acb5aca30b656915ac95ac85ac75ac65ac55ac45ac35ac25ac15ac052fa5abf52f83d40,
  0x5b4a5aeb5aea5ae95ae830f05ae75ae65ae55ae45ae35ae2583e5ae1583d5ae05adf5ade5add5adc5adb5ada5ad95ad830b1583b5ad75ad65ad55ad4,
  0x41f35b615b605b5f5b5e2b915b5d5b5c5b5b5b5a5b59583558345b5830e65b575b5656085b555b545b5356095b525b515b505b4f5b4e5b4d5b4c5b4b,
  0x58465b7158475b705b6f58445b6e584258435b6d58415840583f5b6c5b6b32255b6a5b695b6834605b675b662ae75b6552c52f6936df5b645b635b62,
  0x5b885b875b865b855b845b835b8257515b8150d250d15b8050d05b7f5b7e5b7d5b7c5b7b5b7a5b795b785b7758495b765b755b745b73584858455b72,
  0x5b9d584a5b9c36e05b9b5b9a5b995b985b975b9643fa5b95410c5b945b935b922a135b915b90410f5b8f27bb57535b8e57525b8d5b8c5b8b5b8a5b89,
  0x5c125c115c105850584f5c0f24265c0e584d5c0d584e5c0c5c0b5c0a5c095c085ba95ba8584c5ba75ba6584b5ba55ba45ba35ba25ba15ba05b9f5b9e,
  0x5c2d5c2c5c2b5c2a5c295c285c275c265c255c245c235c225c215c204fdd33e05c1f5c1e5c1d5c1c5c1b5c1a5c195c185c175c165c1558515c145c13,
  0x5c4b5c4a5c495c485c475c465c455c445c435c425c415c405c3f5c3e5c3d5c3c5c3b5c3a5c395c385c375c365c355c345c335c325c315c305c2f5c2e,
  0x50cf29f730395c5a5c595c585c575c565c555c545c535c525c515c505c4f57503514574f574e574d574c574b574a302357495c4e5c4d574825b85c4c,
  0x1ee11ee01edf1ede1edd1edc1edb1eda1ed91ed81ed71ed61ed51ed41ed31ed21ed11ed01ecf1ece5c625c615c605c5f5c5e41ee2a395c5d5c5c5c5b,
  0x1eff1efe1efd1efc1efb1efa1ef91ef81ef71ef61ef51ef41ef31ef21ef11ef01eef1eee1eed1eec1eeb1eea1ee91ee81ee71ee61ee51ee41ee31ee2,
  0x1f1d1f1c1f1b1f1a1f191f181f171f161f151f141f131f121f111f101f0f1f0e1f0d1f0c1f0b1f0a1f091f081f071f061f051f041f031f021f011f00,
  0x1f9b1f9a1f991f981f971f961f951f941f931f921f911f901f8f1f8e1f8d1f8c1f2b1f2a1f291f281f271f261f251f241f231f221f211f201f1f1f1e,
  0x1fb91fb81fb71fb61fb51fb41fb31fb21fb11fb01faf1fae1fad1fac1fab1faa1fa91fa81fa71fa61fa51fa41fa31fa21fa11fa01f9f1f9e1f9d1f9c,
  0x1fd71fd61fd51fd41fd31fd21fd11fd01fcf1fce1fcd1fcc1fcb1fca1fc91fc81fc71fc61fc51fc41fc31fc21fc11fc01fbf1fbe1fbd1fbc1fbb1fba,
  0x205520542053205220512050204f204e204d204c204b204a1fe91fe81fe71fe61fe51fe41fe31fe21fe11fe01fdf1fde1fdd1fdc1fdb1fda1fd91fd8,
  0x2073207220712070206f206e206d206c206b206a2069206820672066206520642063206220612060205f205e205d205c205b205a2059205820572056,
  0x20912090208f208e208d208c208b208a2089208820872086208520842083208220812080207f207e207d207c207b207a207920782077207620752074,
  0x210f210e210d210c210b210a2109210820a720a620a520a420a320a220a120a0209f209e209d209c209b209a20992098209720962095209420932092,
  0x212d212c212b212a2129212821272126212521242123212221212120211f211e211d211c211b211a2119211821172116211521142113211221112110,
  0x214b214a2149214821472146214521442143214221412140213f213e213d213c213b213a2139213821372136213521342133213221312130212f212e,
  0x21c921c821c721c6216521642163216221612160215f215e215d215c215b215a2159215821572156215521542153215221512150214f214e214d214c,
  0x21e721e621e521e421e321e221e121e021df21de21dd21dc21db21da21d921d821d721d621d521d421d321d221d121d021cf21ce21cd21cc21cb21ca,
  0x22052204220322022201220021ff21fe21fd21fc21fb21fa21f921f821f721f621f521f421f321f221f121f021ef21ee21ed21ec21eb21ea21e921e8,
  0x2223222222212220221f221e221d221c221b221a2219221822172216221522142213221222112210220f220e220d220c220b220a2209220822072206,
  0x22a122a0229f229e229d229c229b229a2299229822972296229522942293229222912290228f228e228d228c228b228a228922882287228622852284,
  0x22bf22be22bd22bc22bb22ba22b922b822b722b622b522b422b322b222b122b022af22ae22ad22ac22ab22aa22a922a822a722a622a522a422a322a2,
  0x22dd22dc22db22da22d922d822d722d622d522d422d322d222d122d022cf22ce22cd22cc22cb22ca22c922c822c722c622c522c422c322c222c122c0,
  0x58cb58ca58c958c858c758c658c558c458c358c258c158c058bf58be58bd58bc58bb58ba58b958b858b758b658b558b458b358b222e122e022df22de,
  0x58e958e858e758e658e558e458e358e258e158e058df58de58dd58dc58db58da58d958d858d758d658d558d458d358d258d158d058cf58ce58cd58cc,
  0x5907590659055904590359025901590058ff58fe58fd58fc58fb58fa58f958f858f758f658f558f458f358f258f158f058ef58ee58ed58ec58eb58ea,
  0x598559845983598259815980597f597e597d597c597b597a5979597859775976597559745973597259715970590f590e590d590c590b590a59095908,
  0x59a359a259a159a0599f599e599d599c599b599a5999599859975996599559945993599259915990598f598e598d598c598b598a5989598859875986,
  0x59c159c059bf59be59bd59bc59bb59ba59b959b859b759b659b559b459b359b259b159b059af59ae59ad59ac59ab59aa59a959a859a759a659a559a4,
  0x5a3f5a3e5a3d5a3c5a3b5a3a5a395a385a375a365a355a345a335a325a315a305a2f5a2e59cd59cc59cb59ca59c959c859c759c659c559c459c359c2,
  0x5a5d5a5c5a5b5a5a5a595a585a575a565a555a545a535a525a515a505a4f5a4e5a4d5a4c5a4b5a4a5a495a485a475a465a455a445a435a425a415a40,
  0x5a7b5a7a5a795a785a775a765a755a745a735a725a715a705a6f5a6e5a6d5a6c5a6b5a6a5a695a685a675a665a655a645a635a625a615a605a5f5a5e,
  0x5af95af85af75af65af55af45af35af25af15af05aef5aee5aed5aec5a8b5a8a5a895a885a875a865a855a845a835a825a815a805a7f5a7e5a7d5a7c,
  0x5b175b165b155b145b135b125b115b105b0f5b0e5b0d5b0c5b0b5b0a5b095b085b075b065b055b045b035b025b015b005aff5afe5afd5afc5afb5afa,
  0x5b355b345b335b325b315b305b2f5b2e5b2d5b2c5b2b5b2a5b295b285b275b265b255b245b235b225b215b205b1f5b1e5b1d5b1c5b1b5b1a5b195b18,
  0x5bb35bb25bb15bb05baf5bae5bad5bac5bab5baa5b495b485b475b465b455b445b435b425b415b405b3f5b3e5b3d5b3c5b3b5b3a5b395b385b375b36,
  0x5bd15bd05bcf5bce5bcd5bcc5bcb5bca5bc95bc85bc75bc65bc55bc45bc35bc25bc15bc05bbf5bbe5bbd5bbc5bbb5bba5bb95bb85bb75bb65bb55bb4,
  0x5bef5bee5bed5bec5beb5bea5be95be85be75be65be55be45be35be25be15be05bdf5bde5bdd5bdc5bdb5bda5bd95bd85bd75bd65bd55bd45bd35bd2,
  0x5c6d5c6c5c6b5c6a5c695c685c075c065c055c045c035c025c015c005bff5bfe5bfd5bfc5bfb5bfa5bf95bf85bf75bf65bf55bf45bf35bf25bf15bf0,
  0x5c8b5c8a5c895c885c875c865c855c845c835c825c815c805c7f5c7e5c7d5c7c5c7b5c7a5c795c785c775c765c755c745c735c725c715c705c6f5c6e,
  0x5ca95ca85ca75ca65ca55ca45ca35ca25ca15ca05c9f5c9e5c9d5c9c5c9b5c9a5c995c985c975c965c955c945c935c925c915c905c8f5c8e5c8d5c8c,
  0x5d275d265cc55cc45cc35cc25cc15cc05cbf5cbe5cbd5cbc5cbb5cba5cb95cb85cb75cb65cb55cb45cb35cb25cb15cb05caf5cae5cad5cac5cab5caa,
  0x5d455d445d435d425d415d405d3f5d3e5d3d5d3c5d3b5d3a5d395d385d375d365d355d345d335d325d315d305d2f5d2e5d2d5d2c5d2b5d2a5d295d28,
  0x5d635d625d615d605d5f5d5e5d5d5d5c5d5b5d5a5d595d585d575d565d555d545d535d525d515d505d4f5d4e5d4d5d4c5d4b5d4a5d495d485d475d46,
  0x5d815d805d7f5d7e5d7d5d7c5d7b5d7a5d795d785d775d765d755d745d735d725d715d705d6f5d6e5d6d5d6c5d6b5d6a5d695d685d675d665d655d64,
  0x17db17da17d917d817d717d617d517d417d317d217d117d017cf17ce17cd17cc17cb17ca17c917c817c717c617c517c417c317c217c117c05d835d82,
  0x17f917f817f717f617f517f417f317f217f117f017ef17ee17ed17ec17eb17ea17e917e817e717e617e517e417e317e217e117e017df17de17dd17dc,
  0x18171816181518141813181218111810180f180e180d180c180b180a180918081807180618051804180318021801180017ff17fe17fd17fc17fb17fa,
  0x1893189218911890188f188e188d188c188b188a1889188818871886188518841883188218811880187f187e181f181e181d181c181b181a18191818,
  0x18b118b018af18ae18ad18ac18ab18aa18a918a818a718a618a518a418a318a218a118a0189f189e189d189c189b189a189918981897189618951894,
  0x18cf18ce18cd18cc18cb18ca18c918c818c718c618c518c418c318c218c118c018bf18be18bd18bc18bb18ba18b918b818b718b618b518b418b318b2,
  0x194b194a1949194819471946194519441943194219411940193f193e193d193c18dd18dc18db18da18d918d818d718d618d518d418d318d218d118d0,
  0x1969196819671966196519641963196219611960195f195e195d195c195b195a1959195819571956195519541953195219511950194f194e194d194c,
  0x19871986198519841983198219811980197f197e197d197c197b197a1979197819771976197519741973197219711970196f196e196d196c196b196a,
  0x1a041a031a021a011a0019ff19fe19fd19fc19fb19fa199a1999199819971996199519941993199219911990198f198e198d198c198b198a19891988,
  0x1a221a211a201a1f1a1e1a1d1a1c1a1b1a1a1a191a181a171a161a151a141a131a121a111a101a0f1a0e1a0d1a0c1a0b1a0a1a091a081a071a061a05,
  0x1a401a3f1a3e1a3d1a3c1a3b1a3a1a391a381a371a361a351a341a331a321a311a301a2f1a2e1a2d1a2c1a2b1a2a1a291a281a271a261a251a241a23,
  0x1abc1abb1aba1ab91ab81a591a581a571a561a551a541a531a521a511a501a4f1a4e1a4d1a4c1a4b1a4a1a491a481a471a461a451a441a431a421a41,
  0x1ada1ad91ad81ad71ad61ad51ad41ad31ad21ad11ad01acf1ace1acd1acc1acb1aca1ac91ac81ac71ac61ac51ac41ac31ac21ac11ac01abf1abe1abd,
  0x1af81af71af61af51af41af31af21af11af01aef1aee1aed1aec1aeb1aea1ae91ae81ae71ae61ae51ae41ae31ae21ae11ae01adf1ade1add1adc1adb,
  0x1b161b151b141b131b121b111b101b0f1b0e1b0d1b0c1b0b1b0a1b091b081b071b061b051b041b031b021b011b001aff1afe1afd1afc1afb1afa1af9,
  0x1b921b911b901b8f1b8e1b8d1b8c1b8b1b8a1b891b881b871b861b851b841b831b821b811b801b7f1b7e1b7d1b7c1b7b1b7a1b791b781b771b761b17,
  0x1bb01baf1bae1bad1bac1bab1baa1ba91ba81ba71ba61ba51ba41ba31ba21ba11ba01b9f1b9e1b9d1b9c1b9b1b9a1b991b981b971b961b951b941b93,
  0x1bce1bcd1bcc1bcb1bca1bc91bc81bc71bc61bc51bc41bc31bc21bc11bc01bbf1bbe1bbd1bbc1bbb1bba1bb91bb81bb71bb61bb51bb41bb31bb21bb1,
  0x1c4a1c491c481c471c461c451c441c431c421c411c401c3f1c3e1c3d1c3c1c3b1c3a1c391c381c371c361c351c341bd51bd41bd31bd21bd11bd01bcf,
  0x1c681c671c661c651c641c631c621c611c601c5f1c5e1c5d1c5c1c5b1c5a1c591c581c571c561c551c541c531c521c511c501c4f1c4e1c4d1c4c1c4b,
  0x1c861c851c841c831c821c811c801c7f1c7e1c7d1c7c1c7b1c7a1c791c781c771c761c751c741c731c721c711c701c6f1c6e1c6d1c6c1c6b1c6a1c69,
  0x1ab21ab11ab01aaf1aae1aad193b193a192d192c192118ed18ec18eb18ea18e918e81c931c921c911c901c8f1c8e1c8d1c8c1c8b1c8a1c891c881c87,
  0x1c221c211c141c131c121c111c101c0f1c0e1bf51bf41bf31bf21bf11bf01bef1bee1b751b741b731b721b711b701b6f1b6e1ab71ab61ab51ab41ab3,
  0x1ce91ce81ce71ce61ce51cc31cc21cc11cc01cbf1cbe1cbd1cbc1cbb1cba1cb91cb81cb71cb61cb51c331c321c311c301c2f1c2e1c2d1c2c1c2b1c28,
  0x1da11da01d9f1d9e1d9d1d9c1d9b1d751d741d731d721d511d501d4f1d4e1d4d1d4c1d4b1d4a1d491d481d471cf11cf01cef1cee1ced1cec1ceb1cea,
  0x1e101e0f1e0e1e0d1e0c1e0b1e0a1e091e081e071e061dcf1dce1dcd1dcb1dc81daf1dae1dad1dac1dab1daa1da91da81da71da61da51da41da31da2,
  0x5cf25ced5cec5ce75cdf5cd95cd85cd740914090408f408e408d1e6d1e6c1e6b1e6a1e691e681e671e661e651e641e631e621e611e601e5f1e121e11,
  0x1c291c271dc55cd55cd45cd35cd25cd15cd05ccf5cce5ccd5ccc5ccb5cca5cc95cc85cc75cc65c675c665c655c645c635d255d165d155d045cfc5cf3,
  0x1de41de31de21de11de01ddf1dde1ddd1ddc1ddb1dda1dd91dd81c201c1f1c1e1c1d1c1a1c191c1c1c1b1c241c231c181c171c261c251c161c151c2a,
  0x19a619a519a419a319a219a119a01866199e199d199c1df71df61df51df41df31df21df11df01def1dee1ded1dec1deb1dea1de91de81de71de61de5,
  0x19c419c319c219c119c019bf19be19bd19bc19bb19ba19b919b819b719b619b519b419b319b219b119b019af19ae19ad19ac19ab19aa19a919a819a7,
  0x19e219e119e019df19de19dd19dc19db19da19d919d819d719d619d519d419d319d219d119d019cf19ce19cd19cc19cb19ca19c919c819c719c619c5,
  0x199f1dc719f91dc618691868182a19f819f719f619f519f419f319f219f119f019ef19ee19ed19ec19eb19ea19e919e819e719e619e519e419e3]

/-- `index_pointer_gb18030_1` (lib/whatwg/encoding/indexes_pointer.cpp:12), 23939 entries. -/
def ptr1Gb18030 : Table := ⟨16, 23939, ptr1Gb18030Data⟩

/-- `index_code_point_gb18030_ranges` (lib/whatwg/encoding/indexes_code_point.cpp:39), 207 entries in ascending order of the key. -/
def cpRanges : List (Nat × Nat) := [
  (0, 128), (36, 165), (38, 169), (45, 178), (50, 184), (81, 216), (89, 226), (95, 235), (96, 238), (100, 244),
  (103, 248), (104, 251), (105, 253), (109, 258), (126, 276), (133, 284), (148, 300), (172, 325), (175, 329),
  (179, 334), (208, 364), (306, 463), (307, 465), (308, 467), (309, 469), (310, 471), (311, 473), (312, 475),
  (313, 477), (341, 506), (428, 594), (443, 610), (544, 712), (545, 716), (558, 730), (741, 930), (742, 938),
  (749, 962), (750, 970), (805, 1026), (819, 1104), (820, 1106), (7922, 8209), (7924, 8215), (7925, 8218),
  (7927, 8222), (7934, 8231), (7943, 8241), (7944, 8244), (7945, 8246), (7950, 8252), (8062, 8365), (8148, 8452),
  (8149, 8454), (8152, 8458), (8164, 8471), (8174, 8482), (8236, 8556), (8240, 8570), (8262, 8596), (8264, 8602),
  (8374, 8713), (8380, 8720), (8381, 8722), (8384, 8726), (8388, 8731), (8390, 8737), (8392, 8740), (8393, 8742),
  (8394, 8748), (8396, 8751), (8401, 8760), (8406, 8766), (8416, 8777), (8419, 8781), (8424, 8787), (8437, 8802),
  (8439, 8808), (8445, 8816), (8482, 8854), (8485, 8858), (8496, 8870), (8521, 8896), (8603, 8979), (8936, 9322),
  (8946, 9372), (9046, 9548), (9050, 9588), (9063, 9616), (9066, 9622), (9076, 9634), (9092, 9652), (9100, 9662),
  (9108, 9672), (9111, 9676), (9113, 9680), (9131, 9702), (9162, 9735), (9164, 9738), (9218, 9793), (9219, 9795),
  (11329, 11906), (11331, 11909), (11334, 11913), (11336, 11917), (11346, 11928), (11361, 11944), (11363, 11947),
  (11366, 11951), (11370, 11956), (11372, 11960), (11375, 11964), (11389, 11979), (11682, 12284), (11686, 12292),
  (11687, 12312), (11692, 12319), (11694, 12330), (11714, 12351), (11716, 12436), (11723, 12447), (11725, 12535),
  (11730, 12543), (11736, 12586), (11982, 12842), (11989, 12850), (12102, 12964), (12336, 13200), (12348, 13215),
  (12350, 13218), (12384, 13253), (12393, 13263), (12395, 13267), (12397, 13270), (12510, 13384), (12553, 13428),
  (12851, 13727), (12962, 13839), (12973, 13851), (13738, 14617), (13823, 14703), (13919, 14801), (13933, 14816),
  (14080, 14964), (14298, 15183), (14585, 15471), (14698, 15585), (15583, 16471), (15847, 16736), (16318, 17208),
  (16434, 17325), (16438, 17330), (16481, 17374), (16729, 17623), (17102, 17997), (17122, 18018), (17315, 18212),
  (17320, 18218), (17402, 18301), (17418, 18318), (17859, 18760), (17909, 18811), (17911, 18814), (17915, 18820),
  (17916, 18823), (17936, 18844), (17939, 18848), (17961, 18872), (18664, 19576), (18703, 19620), (18814, 19738),
  (18962, 19887), (19043, 40870), (33469, 59244), (33470, 59336), (33471, 59367), (33484, 59413), (33485, 59417),
  (33490, 59423), (33497, 59431), (33501, 59437), (33505, 59443), (33513, 59452), (33520, 59460), (33536, 59478),
  (33550, 59493), (37845, 63789), (37921, 63866), (37948, 63894), (38029, 63976), (38038, 63986), (38064, 64016),
  (38065, 64018), (38066, 64021), (38069, 64025), (38075, 64034), (38076, 64037), (38078, 64042), (39108, 65074),
  (39109, 65093), (39113, 65107), (39114, 65112), (39115, 65127), (39116, 65132), (39265, 65375), (39394, 65510),
  (189000, 65536)]

/-- `index_pointer_gb18030_ranges` (lib/whatwg/encoding/indexes_pointer.cpp:104), 207 entries in ascending order of the key. -/
def ptrRanges : List (Nat × Nat) := [
  (128, 0), (165, 36), (169, 38), (178, 45), (184, 50), (216, 81), (226, 89), (235, 95), (238, 96), (244, 100),
  (248, 103), (251, 104), (253, 105), (258, 109), (276, 126), (284, 133), (300, 148), (325, 172), (329, 175),
  (334, 179), (364, 208), (463, 306), (465, 307), (467, 308), (469, 309), (471, 310), (473, 311), (475, 312),
  (477, 313), (506, 341), (594, 428), (610, 443), (712, 544), (716, 545), (730, 558), (930, 741), (938, 742),
  (962, 749), (970, 750), (1026, 805), (1104, 819), (1106, 820), (8209, 7922), (8215, 7924), (8218, 7925),
  (8222, 7927), (8231, 7934), (8241, 7943), (8244, 7944), (8246, 7945), (8252, 7950), (8365, 8062), (8452, 8148),
  (8454, 8149), (8458, 8152), (8471, 8164), (8482, 8174), (8556, 8236), (8570, 8240), (8596, 8262), (8602, 8264),
  (8713, 8374), (8720, 8380), (8722, 8381), (8726, 8384), (8731, 8388), (8737, 8390), (8740, 8392), (8742, 8393),
  (8748, 8394), (8751, 8396), (8760, 8401), (8766, 8406), (8777, 8416), (8781, 8419), (8787, 8424), (8802, 8437),
  (8808, 8439), (8816, 8445), (8854, 8482), (8858, 8485), (8870, 8496), (8896, 8521), (8979, 8603), (9322, 8936),
  (9372, 8946), (9548, 9046), (9588, 9050), (9616, 9063), (9622, 9066), (9634, 9076), (9652, 9092), (9662, 9100),
  (9672, 9108), (9676, 9111), (9680, 9113), (9702, 9131), (9735, 9162), (9738, 9164), (9793, 9218), (9795, 9219),
  (11906, 11329), (11909, 11331), (11913, 11334), (11917, 11336), (11928, 11346), (11944, 11361), (11947, 11363),
  (11951, 11366), (11956, 11370), (11960, 11372), (11964, 11375), (11979, 11389), (12284, 11682), (12292, 11686),
  (12312, 11687), (12319, 11692), (12330, 11694), (12351, 11714), (12436, 11716), (12447, 11723), (12535, 11725),
  (12543, 11730), (12586, 11736), (12842, 11982), (12850, 11989), (12964, 12102), (13200, 12336), (13215, 12348),
  (13218, 12350), (13253, 12384), (13263, 12393), (13267, 12395), (13270, 12397), (13384, 12510), (13428, 12553),
  (13727, 12851), (13839, 12962), (13851, 12973), (14617, 13738), (14703, 13823), (14801, 13919), (14816, 13933),
  (14964, 14080), (15183, 14298), (15471, 14585), (15585, 14698), (16471, 15583), (16736, 15847), (17208, 16318),
  (17325, 16434), (17330, 16438), (17374, 16481), (17623, 16729), (17997, 17102), (18018, 17122), (18212, 17315),
  (18218, 17320), (18301, 17402), (18318, 17418), (18760, 17859), (18811, 17909), (18814, 17911), (18820, 17915),
  (18823, 17916), (18844, 17936), (18848, 17939), (18872, 17961), (19576, 18664), (19620, 18703), (19738, 18814),
  (19887, 18962), (40870, 19043), (59244, 33469), (59336, 33470), (59367, 33471), (59413, 33484), (59417, 33485),
  (59423, 33490), (59431, 33497), (59437, 33501), (59443, 33505), (59452, 33513), (59460, 33520), (59478, 33536),
  (59493, 33550), (63789, 37845), (63866, 37921), (63894, 37948), (63976, 38029), (63986, 38038), (64016, 38064),
  (64018, 38065), (64021, 38066), (64025, 38069), (64034, 38075), (64037, 38076), (64042, 38078), (65074, 39108),
  (65093, 39109), (65107, 39113), (65112, 39114), (65127, 39115), (65132, 39116), (65375, 39265), (65510, 39394),
  (65536, 57928)]

end Verif.Model.Tables
