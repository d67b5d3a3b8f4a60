import Verif.Model.Table
/-
Certificates for the tables of named character references, made by a script: the names of the standard packed for the kernel, and
for every node of the trie a name that goes through it and its depth in bytes. They are checked in Proof/NamedRef.lean.
-/
namespace Verif.Proof.NamedRef
open Verif.Model.Table

set_option maxRecDepth 100000

def nameData : Nat := pack 512 [
  0x657475636141000000000000000000000000000000000000000000000000003b657475636141,
  0x657475636161000000000000000000000000000000000000000000000000003b657475636161,
  0x3b657665726261000000000000000000000000000000000000000000000000003b657665726241,
  0x3b64636100000000000000000000000000000000000000000000000000000000003b6361,
  0x3b6372696341000000000000000000000000000000000000000000000000000000003b456361,
  0x3b63726963610000000000000000000000000000000000000000000000000000006372696341,
  0x3b65747563610000000000000000000000000000000000000000000000000000006372696361,
  0x3b7963410000000000000000000000000000000000000000000000000000006574756361,
  0x3b67696c4541000000000000000000000000000000000000000000000000000000003b796361,
  0x3b67696c656100000000000000000000000000000000000000000000000000000067696c4541,
  0x3b666100000000000000000000000000000000000000000000000000000067696c6561,
  0x3b726661000000000000000000000000000000000000000000000000000000003b726641,
  0x657661726741000000000000000000000000000000000000000000000000003b657661726741,
  0x657661726761000000000000000000000000000000000000000000000000003b657661726761,
  0x3b6870656c610000000000000000000000000000000000000000000000003b6d797366656c61,
  0x3b6168706c6100000000000000000000000000000000000000000000000000003b6168706c41,
  0x3b7263616d6100000000000000000000000000000000000000000000000000003b7263616d41,
  0x3b504d4100000000000000000000000000000000000000000000000000003b676c616d61,
  0x3b706d610000000000000000000000000000000000000000000000000000000000504d41,
  0x3b646e410000000000000000000000000000000000000000000000000000000000706d61,
  0x3b646e61646e61000000000000000000000000000000000000000000000000000000003b646e61,
  0x3b65706f6c73646e610000000000000000000000000000000000000000000000000000003b64646e61,
  0x3b676e610000000000000000000000000000000000000000000000000000003b76646e61,
  0x3b656c676e610000000000000000000000000000000000000000000000000000003b65676e61,
  0x3b616164736d676e61000000000000000000000000000000000000000000000000003b64736d676e61,
  0x3b636164736d676e6100000000000000000000000000000000000000000000003b626164736d676e61,
  0x3b656164736d676e6100000000000000000000000000000000000000000000003b646164736d676e61,
  0x3b676164736d676e6100000000000000000000000000000000000000000000003b666164736d676e61,
  0x3b7472676e6100000000000000000000000000000000000000000000003b686164736d676e61,
  0x3b6462767472676e610000000000000000000000000000000000000000000000003b62767472676e61,
  0x3b7473676e61000000000000000000000000000000000000000000000000003b687073676e61,
  0x3b6e6f676f410000000000000000000000000000000000000000000000003b7272617a676e61,
  0x3b66706f4100000000000000000000000000000000000000000000000000003b6e6f676f61,
  0x3b70610000000000000000000000000000000000000000000000000000003b66706f61,
  0x3b457061000000000000000000000000000000000000000000000000003b726963617061,
  0x3b64697061000000000000000000000000000000000000000000000000000000003b657061,
  0x3b6e6f6974636e7546796c7070410000000000000000000000000000000000000000000000000000003b736f7061,
  0x3b7165786f72707061000000000000000000000000000000000000000000000000003b786f72707061,
  0x676e69724100000000000000000000000000000000000000000000000000003b676e697241,
  0x676e69726100000000000000000000000000000000000000000000000000003b676e697261,
  0x3b726373610000000000000000000000000000000000000000000000000000003b72637341,
  0x3b747361000000000000000000000000000000000000000000000000003b6e6769737341,
  0x3b7165706d79736100000000000000000000000000000000000000000000000000003b706d797361,
  0x65646c697441000000000000000000000000000000000000000000000000003b65646c697441,
  0x65646c697461000000000000000000000000000000000000000000000000003b65646c697461,
  0x6c6d75410000000000000000000000000000000000000000000000000000003b6c6d7541,
  0x6c6d75610000000000000000000000000000000000000000000000000000003b6c6d7561,
  0x3b746e69776100000000000000000000000000000000000000000000003b746e696e6f637761,
  0x3b6e6f6c697370656b63616200000000000000000000000000000000000000000000003b676e6f636b636162,
  0x3b6d69736b636162000000000000000000000000000000000000000000003b656d6972706b636162,
  0x3b6873616c736b636142000000000000000000000000000000000000000000003b71656d69736b636162,
  0x3b6565767261620000000000000000000000000000000000000000000000000000003b76726142,
  0x3b646577726162000000000000000000000000000000000000000000000000003b646577726142,
  0x3b6b72626200000000000000000000000000000000000000000000003b6567646577726162,
  0x3b676e6f636200000000000000000000000000000000000000000000003b6b7262746b726262,
  0x3b796362000000000000000000000000000000000000000000000000000000003b796342,
  0x3b73756163656200000000000000000000000000000000000000000000000000003b6f75716462,
  0x3b657375616365620000000000000000000000000000000000000000000000003b65737561636542,
  0x3b69737065620000000000000000000000000000000000000000000000003b767974706d6562,
  0x3b73696c6c756f6e726542000000000000000000000000000000000000000000000000003b756f6e726562,
  0x3b617465620000000000000000000000000000000000000000000000000000003b61746542,
  0x3b6e6565777465620000000000000000000000000000000000000000000000000000003b68746562,
  0x3b726662000000000000000000000000000000000000000000000000000000003b726642,
  0x3b63726963676962000000000000000000000000000000000000000000000000003b706163676962,
  0x3b746f646f676962000000000000000000000000000000000000000000000000003b707563676962,
  0x3b73656d69746f67696200000000000000000000000000000000000000000000003b73756c706f676962,
  0x3b7261747367696200000000000000000000000000000000000000000000003b7075637173676962,
  0x3b7075656c676e61697274676962000000000000000000000000000000003b6e776f64656c676e61697274676962,
  0x3b65657667696200000000000000000000000000000000000000000000003b73756c7075676962,
  0x3b776f72616b6200000000000000000000000000000000000000000000003b6567646577676962,
  0x3b6572617571736b63616c62000000000000000000000000000000000000003b65676e657a6f6c6b63616c62,
  0x3b6e776f64656c676e616972746b63616c620000000000000000000000000000000000003b656c676e616972746b63616c62,
  0x3b7468676972656c676e616972746b63616c6200000000000000000000000000003b7466656c656c676e616972746b63616c62,
  0x3b32316b6c6200000000000000000000000000000000000000000000000000003b6b6e616c62,
  0x3b34336b6c6200000000000000000000000000000000000000000000000000003b34316b6c62,
  0x3b656e6200000000000000000000000000000000000000000000000000003b6b636f6c62,
  0x3b746f4e620000000000000000000000000000000000000000000000003b76697571656e62,
  0x3b66706f420000000000000000000000000000000000000000000000000000003b746f6e62,
  0x3b746f620000000000000000000000000000000000000000000000000000003b66706f62,
  0x3b656974776f62000000000000000000000000000000000000000000000000003b6d6f74746f62,
  0x3b4c44786f62000000000000000000000000000000000000000000000000003b786f62786f62,
  0x3b4c64786f6200000000000000000000000000000000000000000000000000003b6c44786f62,
  0x3b5244786f6200000000000000000000000000000000000000000000000000003b6c64786f62,
  0x3b5264786f6200000000000000000000000000000000000000000000000000003b7244786f62,
  0x3b48786f6200000000000000000000000000000000000000000000000000003b7264786f62,
  0x3b4448786f620000000000000000000000000000000000000000000000000000003b68786f62,
  0x3b4468786f6200000000000000000000000000000000000000000000000000003b6448786f62,
  0x3b5548786f6200000000000000000000000000000000000000000000000000003b6468786f62,
  0x3b5568786f6200000000000000000000000000000000000000000000000000003b7548786f62,
  0x3b73756e696d786f6200000000000000000000000000000000000000000000000000003b7568786f62,
  0x3b73656d6974786f620000000000000000000000000000000000000000000000003b73756c70786f62,
  0x3b6c55786f6200000000000000000000000000000000000000000000000000003b4c55786f62,
  0x3b6c75786f6200000000000000000000000000000000000000000000000000003b4c75786f62,
  0x3b7255786f6200000000000000000000000000000000000000000000000000003b5255786f62,
  0x3b7275786f6200000000000000000000000000000000000000000000000000003b5275786f62,
  0x3b76786f620000000000000000000000000000000000000000000000000000003b56786f62,
  0x3b6856786f6200000000000000000000000000000000000000000000000000003b4856786f62,
  0x3b6876786f6200000000000000000000000000000000000000000000000000003b4876786f62,
  0x3b6c56786f6200000000000000000000000000000000000000000000000000003b4c56786f62,
  0x3b6c76786f6200000000000000000000000000000000000000000000000000003b4c76786f62,
  0x3b7256786f6200000000000000000000000000000000000000000000000000003b5256786f62,
  0x3b7276786f6200000000000000000000000000000000000000000000000000003b5276786f62,
  0x3b6576657242000000000000000000000000000000000000000000000000003b656d69727062,
  0x3b72616276726200000000000000000000000000000000000000000000000000003b6576657262,
  0x3b726373420000000000000000000000000000000000000000000000000000726162767262,
  0x3b696d6573620000000000000000000000000000000000000000000000000000003b72637362,
  0x3b656d6973620000000000000000000000000000000000000000000000000000003b6d697362,
  0x3b626c6f73620000000000000000000000000000000000000000000000000000003b6c6f7362,
  0x3b6c6c756200000000000000000000000000000000000000000000003b627573686c6f7362,
  0x3b706d7562000000000000000000000000000000000000000000000000003b74656c6c7562,
  0x3b65706d756200000000000000000000000000000000000000000000000000003b45706d7562,
  0x3b7165706d7562000000000000000000000000000000000000000000000000003b7165706d7542,
  0x3b657475636163000000000000000000000000000000000000000000000000003b657475636143,
  0x3b706163000000000000000000000000000000000000000000000000000000003b706143,
  0x3b7075637262706163000000000000000000000000000000000000000000000000003b646e61706163,
  0x3b707563706163000000000000000000000000000000000000000000000000003b706163706163,
  0x3b446c6169746e657265666669446c617469706143000000000000000000000000000000000000000000000000003b746f64706163,
  0x3b74657261630000000000000000000000000000000000000000000000000000003b73706163,
  0x3b7379656c79614300000000000000000000000000000000000000000000000000003b6e6f726163,
  0x3b6e6f7261634300000000000000000000000000000000000000000000000000003b7370616363,
  0x3b6c6964656343000000000000000000000000000000000000000000000000003b6e6f72616363,
  0x3b6c696465636300000000000000000000000000000000000000000000000000006c6964656343,
  0x3b637269634300000000000000000000000000000000000000000000000000006c6964656363,
  0x3b746e696e6f634300000000000000000000000000000000000000000000000000003b6372696363,
  0x3b6d73737075636300000000000000000000000000000000000000000000000000003b7370756363,
  0x3b746f64630000000000000000000000000000000000000000000000000000003b746f6443,
  0x6c6964656300000000000000000000000000000000000000000000000000003b6c69646563,
  0x3b767974706d65630000000000000000000000000000000000000000000000003b616c6c69646543,
  0x746e65630000000000000000000000000000000000000000000000000000003b746e6563,
  0x3b746f647265746e6563000000000000000000000000000000000000000000003b746f447265746e6543,
  0x3b726663000000000000000000000000000000000000000000000000000000003b726643,
  0x3b796368630000000000000000000000000000000000000000000000000000003b79634843,
  0x3b6b72616d6b6365686300000000000000000000000000000000000000000000000000003b6b63656863,
  0x3b696863000000000000000000000000000000000000000000000000000000003b696843,
  0x3b63726963000000000000000000000000000000000000000000000000000000003b726963,
  0x3b7466656c776f727261656c63726963000000000000000000000000000000000000000000000000003b716563726963,
  0x3b74736164656c637269630000000000000000000000000000003b7468676972776f727261656c63726963,
  0x3b6873616464656c6372696300000000000000000000000000000000000000003b6372696364656c63726963,
  0x3b5264656c63726963000000000000000000000000000000000000000000003b746f44656c63726943,
  0x3b73756e694d656c6372694300000000000000000000000000000000000000000000003b5364656c63726963,
  0x3b73656d6954656c637269430000000000000000000000000000000000000000003b73756c50656c63726943,
  0x3b657269630000000000000000000000000000000000000000000000000000003b45726963,
  0x3b64696d72696300000000000000000000000000000000000000000000003b746e696e66726963,
  0x3b6c61726765746e4972756f746e6f43657369776b636f6c430000000000000000000000000000000000000000000000003b72696373726963,
  0x3b65746f7551796c72754365736f6c43000000000000000000003b65746f7551656c62756f44796c72754365736f6c43,
  0x3b7469757362756c6300000000000000000000000000000000000000000000000000003b7362756c63,
  0x3b6e6f6c6f6300000000000000000000000000000000000000000000000000003b6e6f6c6f43,
  0x3b656e6f6c6f63000000000000000000000000000000000000000000000000003b656e6f6c6f43,
  0x3b616d6d6f630000000000000000000000000000000000000000000000003b71656e6f6c6f63,
  0x3b706d6f63000000000000000000000000000000000000000000000000003b74616d6d6f63,
  0x3b746e656d656c706d6f63000000000000000000000000000000000000000000000000003b6e66706d6f63,
  0x3b676e6f63000000000000000000000000000000000000000000003b736578656c706d6f63,
  0x3b746e657572676e6f430000000000000000000000000000000000000000000000003b746f64676e6f63,
  0x3b746e696e6f63000000000000000000000000000000000000000000000000003b746e696e6f43,
  0x3b66706f43000000000000000000000000000000003b6c61726765746e4972756f746e6f43,
  0x3b646f72706f630000000000000000000000000000000000000000000000000000003b66706f63,
  0x3b59504f43000000000000000000000000000000000000000000003b746375646f72706f43,
  0x3b79706f630000000000000000000000000000000000000000000000000000000059504f43,
  0x3b727379706f630000000000000000000000000000000000000000000000000000000079706f63,
  0x3b72726172633b6c61726765746e4972756f746e6f43657369776b636f6c437265746e756f43,
  0x3b73736f726300000000000000000000000000000000000000000000000000003b73736f7243,
  0x3b726373630000000000000000000000000000000000000000000000000000003b72637343,
  0x3b65627573630000000000000000000000000000000000000000000000000000003b62757363,
  0x3b65707573630000000000000000000000000000000000000000000000000000003b70757363,
  0x3b6c72726164756300000000000000000000000000000000000000000000000000003b746f647463,
  0x3b72706575630000000000000000000000000000000000000000000000003b72727261647563,
  0x3b7272616c756300000000000000000000000000000000000000000000000000003b6373657563,
  0x3b7075430000000000000000000000000000000000000000000000003b707272616c7563,
  0x3b7061637262707563000000000000000000000000000000000000000000000000000000003b707563,
  0x3b706163707563000000000000000000000000000000000000000000000000003b706143707543,
  0x3b746f64707563000000000000000000000000000000000000000000000000003b707563707563,
  0x3b7370756300000000000000000000000000000000000000000000000000003b726f707563,
  0x3b6d727261727563000000000000000000000000000000000000000000000000003b727261727563,
  0x3b636375737165796c72756300000000000000000000000000000000000000003b636572707165796c727563,
  0x3b6567646577796c72756300000000000000000000000000000000000000000000003b656576796c727563,
  0x6e6572727563000000000000000000000000000000000000000000000000003b6e6572727563,
  0x3b7468676972776f727261657672756300000000000000000000000000000000003b7466656c776f7272616576727563,
  0x3b646577756300000000000000000000000000000000000000000000000000003b6565767563,
  0x3b746e69776300000000000000000000000000000000000000000000003b746e696e6f637763,
  0x3b726567676144000000000000000000000000000000000000000000000000003b7974636c7963,
  0x3b6874656c6164000000000000000000000000000000000000000000000000003b726567676164,
  0x3b727241640000000000000000000000000000000000000000000000000000003b72726144,
  0x3b687361640000000000000000000000000000000000000000000000000000003b72726164,
  0x3b766873616400000000000000000000000000000000000000000000000000003b7668736144,
  0x3b63616c62640000000000000000000000000000000000000000000000003b776f72616b6264,
  0x3b6e6f72616364000000000000000000000000000000000000000000000000003b6e6f72616344,
  0x3b796364000000000000000000000000000000000000000000000000000000003b796344,
  0x3b646400000000000000000000000000000000000000000000000000000000003b4444,
  0x3b72726164640000000000000000000000000000000000000000000000003b72656767616464,
  0x3b716573746f646400000000000000000000000000000000000000000000003b64686172746f4444,
  0x676564000000000000000000000000000000000000000000000000000000003b676564,
  0x3b61746c6544000000000000000000000000000000000000000000000000000000003b6c6544,
  0x3b767974706d656400000000000000000000000000000000000000000000000000003b61746c6564,
  0x3b726644000000000000000000000000000000000000000000000000003b746873696664,
  0x3b72614864000000000000000000000000000000000000000000000000000000003b726664,
  0x3b727261686400000000000000000000000000000000000000000000000000003b6c72616864,
  0x3b746f446c616369746972636169440000000000000000000000000000003b65747563416c61636974697263616944,
  0x3b65766172476c616369746972636169440000000000000000003b6574756341656c62756f446c61636974697263616944,
  0x3b6d6169640000000000000000000000000000003b65646c69546c61636974697263616944,
  0x3b646e6f6d6169640000000000000000000000000000000000000000000000003b646e6f6d616944,
  0x3b736d61696400000000000000000000000000000000000000003b74697573646e6f6d616964,
  0x3b446c6169746e65726566666944000000000000000000000000000000000000000000000000000000003b656964,
  0x3b6e697369640000000000000000000000000000000000000000000000003b616d6d61676964,
  0x3b656469766964000000000000000000000000000000000000000000000000000000003b766964,
  0x3b73656d69746e6f6564697669640000000000000000000000000000000000000000000000000000656469766964,
  0x3b79634a44000000000000000000000000000000000000000000000000003b786e6f766964,
  0x3b6e726f636c640000000000000000000000000000000000000000000000000000003b79636a64,
  0x3b72616c6c6f64000000000000000000000000000000000000000000000000003b706f72636c64,
  0x3b66706f640000000000000000000000000000000000000000000000000000003b66706f44,
  0x3b746f64000000000000000000000000000000000000000000000000000000003b746f44,
  0x3b7165746f64000000000000000000000000000000000000000000000000003b746f44746f44,
  0x3b6c61757145746f4400000000000000000000000000000000000000000000003b746f647165746f64,
  0x3b73756c70746f6400000000000000000000000000000000000000000000003b73756e696d746f64,
  0x3b6567646577726162656c62756f64000000000000000000000000000000000000000000003b657261757173746f64,
  0x3b746f44656c62756f44000000000000000000003b6c61726765746e4972756f746e6f43656c62756f44,
  0x3b776f7272417466654c656c62756f44000000000000000000000000000000003b776f7272416e776f44656c62756f44,
  0x3b6565547466654c656c62756f4400000000000000000000003b776f72724174686769527466654c656c62756f44,
  0x3b776f72724174686769527466654c676e6f4c656c62756f440000000000000000000000003b776f7272417466654c676e6f4c656c62756f44,
  0x3b776f7272417468676952656c62756f4400000000000000000000003b776f7272417468676952676e6f4c656c62756f44,
  0x3b776f7272417055656c62756f4400000000000000000000000000000000003b6565547468676952656c62756f44,
  0x3b7261426c61636974726556656c62756f4400000000000000000000000000003b776f7272416e776f447055656c62756f44,
  0x3b776f7272616e776f44000000000000000000000000000000000000000000003b776f7272416e776f44,
  0x3b726142776f7272416e776f44000000000000000000000000000000000000000000003b776f7272616e776f64,
  0x3b65766572426e776f440000000000000000000000000000003b776f7272417055776f7272416e776f44,
  0x3b7466656c6e6f6f707261686e776f6400000000000000000000000000000000003b73776f7272616e776f646e776f64,
  0x3b726f7463655674686769527466654c6e776f440000000000000000000000000000003b74686769726e6f6f707261686e776f64,
  0x3b726f746365567466654c6e776f4400000000000000000000000000003b726f746365566565547466654c6e776f44,
  0x3b726f7463655665655474686769526e776f4400000000000000000000000000003b726142726f746365567466654c6e776f44,
  0x3b726142726f7463655674686769526e776f44000000000000000000000000000000003b726f7463655674686769526e776f44,
  0x3b776f7272416565546e776f440000000000000000000000000000000000000000000000003b6565546e776f44,
  0x3b6e726f63726400000000000000000000000000000000000000000000003b776f72616b627264,
  0x3b72637344000000000000000000000000000000000000000000000000003b706f72637264,
  0x3b796353440000000000000000000000000000000000000000000000000000003b72637364,
  0x3b6c6f73640000000000000000000000000000000000000000000000000000003b79637364,
  0x3b6b6f72747364000000000000000000000000000000000000000000000000003b6b6f72747344,
  0x3b6972746400000000000000000000000000000000000000000000000000003b746f647464,
  0x3b727261756400000000000000000000000000000000000000000000000000003b6669727464,
  0x3b656c676e61776400000000000000000000000000000000000000000000000000003b7261687564,
  0x3b79637a640000000000000000000000000000000000000000000000000000003b79635a44,
  0x3b65747563614500000000000000000000000000000000000000000000003b7272617267697a64,
  0x3b6574756361650000000000000000000000000000000000000000000000000000657475636145,
  0x3b7265747361650000000000000000000000000000000000000000000000000000657475636165,
  0x3b6e6f72616365000000000000000000000000000000000000000000000000003b6e6f72616345,
  0x3b63726963450000000000000000000000000000000000000000000000000000003b72696365,
  0x3b63726963650000000000000000000000000000000000000000000000000000006372696345,
  0x3b6e6f6c6f63650000000000000000000000000000000000000000000000000000006372696365,
  0x3b796365000000000000000000000000000000000000000000000000000000003b796345,
  0x3b746f644500000000000000000000000000000000000000000000000000003b746f444465,
  0x3b746f64650000000000000000000000000000000000000000000000000000003b746f4465,
  0x3b746f44666500000000000000000000000000000000000000000000000000000000003b6565,
  0x3b726665000000000000000000000000000000000000000000000000000000003b726645,
  0x3b65766172674500000000000000000000000000000000000000000000000000000000003b6765,
  0x3b6576617267650000000000000000000000000000000000000000000000000000657661726745,
  0x3b7367650000000000000000000000000000000000000000000000000000657661726765,
  0x3b6c65000000000000000000000000000000000000000000000000003b746f64736765,
  0x3b737265746e696c650000000000000000000000000000000000000000000000003b746e656d656c45,
  0x3b736c65000000000000000000000000000000000000000000000000000000003b6c6c65,
  0x3b7263616d45000000000000000000000000000000000000000000000000003b746f64736c65,
  0x3b7974706d6500000000000000000000000000000000000000000000000000003b7263616d65,
  0x3b6572617571536c6c616d537974706d4500000000000000000000000000000000000000000000003b7465737974706d65,
  0x3b6572617571536c6c616d53797265567974706d45000000000000000000000000000000000000000000000000003b767974706d65,
  0x3b333170736d650000000000000000000000000000000000000000000000000000003b70736d65,
  0x3b474e45000000000000000000000000000000000000000000000000003b343170736d65,
  0x3b70736e65000000000000000000000000000000000000000000000000000000003b676e65,
  0x3b6e6f676f6500000000000000000000000000000000000000000000000000003b6e6f676f45,
  0x3b66706f650000000000000000000000000000000000000000000000000000003b66706f45,
  0x3b6c73726170650000000000000000000000000000000000000000000000000000003b72617065,
  0x3b6973706500000000000000000000000000000000000000000000000000003b73756c7065,
  0x3b6e6f6c697370650000000000000000000000000000000000000000000000003b6e6f6c69737045,
  0x3b63726963716500000000000000000000000000000000000000000000000000003b7669737065,
  0x3b6d697371650000000000000000000000000000000000000000000000003b6e6f6c6f637165,
  0x3b7373656c746e616c7371650000000000000000000000000000000000000000003b727467746e616c737165,
  0x3b736c6175716500000000000000000000000000000000000000000000000000003b6c61757145,
  0x3b7473657571650000000000000000000000000000000000000000003b65646c69546c61757145,
  0x3b766975716500000000000000000000000000000000000000003b6d75697262696c69757145,
  0x3b6c737261707671650000000000000000000000000000000000000000000000003b44447669757165,
  0x3b746f44726500000000000000000000000000000000000000000000000000003b7272617265,
  0x3b726373650000000000000000000000000000000000000000000000000000003b72637345,
  0x3b6d69734500000000000000000000000000000000000000000000000000003b746f647365,
  0x3b6174450000000000000000000000000000000000000000000000000000003b6d697365,
  0x3b485445000000000000000000000000000000000000000000000000000000003b617465,
  0x3b6874650000000000000000000000000000000000000000000000000000000000485445,
  0x3b6c6d75450000000000000000000000000000000000000000000000000000000000687465,
  0x3b6c6d7565000000000000000000000000000000000000000000000000000000006c6d7545,
  0x3b6f727565000000000000000000000000000000000000000000000000000000006c6d7565,
  0x3b74736978650000000000000000000000000000000000000000000000000000003b6c637865,
  0x3b6e6f697461746365707865000000000000000000000000000000000000000000000000003b737473697845,
  0x3b656c6169746e656e6f707865000000000000000000000000000000000000003b456c6169746e656e6f707845,
  0x3b7963460000000000000000000000000000000000003b716573746f64676e696c6c6166,
  0x3b656c616d6566000000000000000000000000000000000000000000000000000000003b796366,
  0x3b67696c6666000000000000000000000000000000000000000000000000003b67696c696666,
  0x3b726646000000000000000000000000000000000000000000000000003b67696c6c6666,
  0x3b67696c6966000000000000000000000000000000000000000000000000000000003b726666,
  0x3b6572617571536c6c616d537972655664656c6c694600000000000000000000000000003b6572617571536c6c616d5364656c6c6946,
  0x3b74616c6600000000000000000000000000000000000000000000000000003b67696c6a66,
  0x3b736e746c6600000000000000000000000000000000000000000000000000003b67696c6c66,
  0x3b66706f460000000000000000000000000000000000000000000000000000003b666f6e66,
  0x3b6c6c41726f460000000000000000000000000000000000000000000000000000003b66706f66,
  0x3b6b726f66000000000000000000000000000000000000000000000000003b6c6c61726f66,
  0x3b66727472656972756f4600000000000000000000000000000000000000000000000000003b766b726f66,
  0x3b32316361726600000000000000000000000000000000000000000000003b746e697472617066,
  0x3b3331636172660000000000000000000000000000000000000000000000000000323163617266,
  0x343163617266000000000000000000000000000000000000000000000000003b343163617266,
  0x3b363163617266000000000000000000000000000000000000000000000000003b353163617266,
  0x3b333263617266000000000000000000000000000000000000000000000000003b383163617266,
  0x3b343363617266000000000000000000000000000000000000000000000000003b353263617266,
  0x3b3533636172660000000000000000000000000000000000000000000000000000343363617266,
  0x3b353463617266000000000000000000000000000000000000000000000000003b383363617266,
  0x3b383563617266000000000000000000000000000000000000000000000000003b363563617266,
  0x3b6c73617266000000000000000000000000000000000000000000000000003b383763617266,
  0x3b7263734600000000000000000000000000000000000000000000000000003b6e776f7266,
  0x3b6574756361670000000000000000000000000000000000000000000000000000003b72637366,
  0x3b616d6d616700000000000000000000000000000000000000000000000000003b616d6d6147,
  0x3b64616d6d6167000000000000000000000000000000000000000000000000003b64616d6d6147,
  0x3b657665726247000000000000000000000000000000000000000000000000000000003b706167,
  0x3b6c6964656347000000000000000000000000000000000000000000000000003b657665726267,
  0x3b637269636700000000000000000000000000000000000000000000000000003b6372696347,
  0x3b796367000000000000000000000000000000000000000000000000000000003b796347,
  0x3b746f64670000000000000000000000000000000000000000000000000000003b746f6447,
  0x3b656700000000000000000000000000000000000000000000000000000000003b4567,
  0x3b6c6567000000000000000000000000000000000000000000000000000000003b6c4567,
  0x3b71716567000000000000000000000000000000000000000000000000000000003b716567,
  0x3b73656700000000000000000000000000000000000000000000003b746e616c73716567,
  0x3b746f6473656700000000000000000000000000000000000000000000000000003b6363736567,
  0x3b6c6f746f647365670000000000000000000000000000000000000000000000003b6f746f64736567,
  0x3b73656c7365670000000000000000000000000000000000000000000000000000003b6c736567,
  0x3b726667000000000000000000000000000000000000000000000000000000003b726647,
  0x3b676700000000000000000000000000000000000000000000000000000000003b6747,
  0x3b6c656d6967000000000000000000000000000000000000000000000000000000003b676767,
  0x3b79636a670000000000000000000000000000000000000000000000000000003b79634a47,
  0x3b616c6700000000000000000000000000000000000000000000000000000000003b6c67,
  0x3b6a6c67000000000000000000000000000000000000000000000000000000003b456c67,
  0x3b786f727070616e670000000000000000000000000000000000000000000000000000003b70616e67,
  0x3b656e67000000000000000000000000000000000000000000000000000000003b456e67,
  0x3b7171656e670000000000000000000000000000000000000000000000000000003b71656e67,
  0x3b66706f4700000000000000000000000000000000000000000000000000003b6d69736e67,
  0x3b65766172670000000000000000000000000000000000000000000000000000003b66706f67,
  0x3b7373654c6c6175714572657461657247000000000000000000000000000000000000003b6c6175714572657461657247,
  0x3b72657461657247726574616572470000000000000000000000000000003b6c617571456c6c754672657461657247,
  0x3b6c61757145746e616c537265746165724700000000000000000000000000000000000000003b7373654c72657461657247,
  0x3b72637347000000000000000000000000000000000000003b65646c695472657461657247,
  0x3b6d6973670000000000000000000000000000000000000000000000000000003b72637367,
  0x3b6c6d69736700000000000000000000000000000000000000000000000000003b656d697367,
  0x544700000000000000000000000000000000000000000000000000000000003b5447,
  0x3b746700000000000000000000000000000000000000000000000000000000003b7447,
  0x3b636374670000000000000000000000000000000000000000000000000000000000007467,
  0x3b746f64746700000000000000000000000000000000000000000000000000003b7269637467,
  0x3b74736575717467000000000000000000000000000000000000000000000000003b7261506c7467,
  0x3b727261727467000000000000000000000000000000000000000000003b786f72707061727467,
  0x3b7373656c7165727467000000000000000000000000000000000000000000000000003b746f64727467,
  0x3b7373656c7274670000000000000000000000000000000000000000003b7373656c717165727467,
  0x3b7171656e7472657667000000000000000000000000000000000000000000000000003b6d6973727467,
  0x3b6b656361480000000000000000000000000000000000000000000000000000003b456e7667,
  0x3b666c6168000000000000000000000000000000000000000000000000003b707372696168,
  0x3b796344524148000000000000000000000000000000000000000000000000003b746c696d6168,
  0x3b72724168000000000000000000000000000000000000000000000000003b796364726168,
  0x3b726963727261680000000000000000000000000000000000000000000000000000003b72726168,
  0x3b74614800000000000000000000000000000000000000000000000000003b7772726168,
  0x3b63726963480000000000000000000000000000000000000000000000000000003b72616268,
  0x3b73747261656800000000000000000000000000000000000000000000000000003b6372696368,
  0x3b70696c6c6568000000000000000000000000000000000000000000003b746975737472616568,
  0x3b726648000000000000000000000000000000000000000000000000003b6e6f63726568,
  0x3b6563617053747265626c6948000000000000000000000000000000000000000000000000000000003b726668,
  0x3b776f726177736b6800000000000000000000000000000000000000000000003b776f726165736b68,
  0x3b7468746d6f6800000000000000000000000000000000000000000000000000003b7272616f68,
  0x3b776f72726174686769726b6f6f680000000000000000000000000000000000003b776f7272617466656c6b6f6f68,
  0x3b66706f680000000000000000000000000000000000000000000000000000003b66706f48,
  0x3b656e694c6c61746e6f7a69726f48000000000000000000000000000000000000000000000000003b726162726f68,
  0x3b726373680000000000000000000000000000000000000000000000000000003b72637348,
  0x3b6b6f72747348000000000000000000000000000000000000000000000000003b6873616c7368,
  0x3b706d75486e776f44706d7548000000000000000000000000000000000000000000000000003b6b6f72747368,
  0x3b6c6c75627968000000000000000000000000000000000000000000003b6c61757145706d7548,
  0x3b657475636149000000000000000000000000000000000000000000000000003b6e6568707968,
  0x3b6574756361690000000000000000000000000000000000000000000000000000657475636149,
  0x3b63690000000000000000000000000000000000000000000000000000657475636169,
  0x637269634900000000000000000000000000000000000000000000000000003b6372696349,
  0x637269636900000000000000000000000000000000000000000000000000003b6372696369,
  0x3b796369000000000000000000000000000000000000000000000000000000003b796349,
  0x3b796345490000000000000000000000000000000000000000000000000000003b746f6449,
  0x3b6c637865690000000000000000000000000000000000000000000000000000003b79636569,
  0x3b6666690000000000000000000000000000000000000000000000000000006c63786569,
  0x3b726669000000000000000000000000000000000000000000000000000000003b726649,
  0x657661726749000000000000000000000000000000000000000000000000003b657661726749,
  0x657661726769000000000000000000000000000000000000000000000000003b657661726769,
  0x3b746e6969696900000000000000000000000000000000000000000000000000000000003b6969,
  0x3b6e69666e696900000000000000000000000000000000000000000000000000003b746e696969,
  0x3b67696c4a4900000000000000000000000000000000000000000000000000003b61746f6969,
  0x3b6d4900000000000000000000000000000000000000000000000000003b67696c6a69,
  0x3b7263616d6900000000000000000000000000000000000000000000000000003b7263616d49,
  0x3b497972616e6967616d4900000000000000000000000000000000000000000000000000003b6567616d69,
  0x3b7472617067616d6900000000000000000000000000000000000000000000003b656e696c67616d69,
  0x3b666f6d6900000000000000000000000000000000000000000000000000003b6874616d69,
  0x3b7365696c706d4900000000000000000000000000000000000000000000000000003b6465706d69,
  0x3b657261636e6900000000000000000000000000000000000000000000000000000000003b6e69,
  0x3b6569746e69666e6900000000000000000000000000000000000000000000000000003b6e69666e69,
  0x3b746e49000000000000000000000000000000000000000000000000003b746f646f6e69,
  0x3b6c6163746e69000000000000000000000000000000000000000000000000000000003b746e69,
  0x3b6c61726765746e4900000000000000000000000000000000000000000000003b7372656765746e69,
  0x3b6e6f69746365737265746e4900000000000000000000000000000000000000000000003b6c61637265746e69,
  0x3b646f7270746e6900000000000000000000000000000000000000000000003b6b6872616c746e69,
  0x3b73656d6954656c62697369766e4900000000000000000000000000000000003b616d6d6f43656c62697369766e49,
  0x3b79636f690000000000000000000000000000000000000000000000000000003b79634f49,
  0x3b6e6f676f6900000000000000000000000000000000000000000000000000003b6e6f676f49,
  0x3b66706f690000000000000000000000000000000000000000000000000000003b66706f49,
  0x3b61746f690000000000000000000000000000000000000000000000000000003b61746f49,
  0x3b74736575716900000000000000000000000000000000000000000000000000003b646f727069,
  0x3b726373490000000000000000000000000000000000000000000000000000747365757169,
  0x3b6e6973690000000000000000000000000000000000000000000000000000003b72637369,
  0x3b456e6973690000000000000000000000000000000000000000000000003b746f646e697369,
  0x3b76736e69736900000000000000000000000000000000000000000000000000003b736e697369,
  0x3b746900000000000000000000000000000000000000000000000000003b766e697369,
  0x3b65646c697469000000000000000000000000000000000000000000000000003b65646c697449,
  0x3b79636b756900000000000000000000000000000000000000000000000000003b79636b7549,
  0x6c6d75490000000000000000000000000000000000000000000000000000003b6c6d7549,
  0x6c6d75690000000000000000000000000000000000000000000000000000003b6c6d7569,
  0x3b637269636a00000000000000000000000000000000000000000000000000003b637269634a,
  0x3b79636a000000000000000000000000000000000000000000000000000000003b79634a,
  0x3b72666a000000000000000000000000000000000000000000000000000000003b72664a,
  0x3b66706f4a00000000000000000000000000000000000000000000000000003b6874616d6a,
  0x3b7263734a0000000000000000000000000000000000000000000000000000003b66706f6a,
  0x3b79637265734a0000000000000000000000000000000000000000000000000000003b7263736a,
  0x3b79636b754a000000000000000000000000000000000000000000000000003b79637265736a,
  0x3b617070614b00000000000000000000000000000000000000000000000000003b79636b756a,
  0x3b76617070616b00000000000000000000000000000000000000000000000000003b617070616b,
  0x3b6c696465636b000000000000000000000000000000000000000000000000003b6c696465634b,
  0x3b79636b000000000000000000000000000000000000000000000000000000003b79634b,
  0x3b72666b000000000000000000000000000000000000000000000000000000003b72664b,
  0x3b7963484b000000000000000000000000000000000000000000000000003b6e656572676b,
  0x3b79634a4b0000000000000000000000000000000000000000000000000000003b7963686b,
  0x3b66706f4b0000000000000000000000000000000000000000000000000000003b79636a6b,
  0x3b7263734b0000000000000000000000000000000000000000000000000000003b66706f6b,
  0x3b727261416c0000000000000000000000000000000000000000000000000000003b7263736b,
  0x3b65747563616c000000000000000000000000000000000000000000000000003b65747563614c,
  0x3b6e617267616c00000000000000000000000000000000000000000000003b767974706d65616c,
  0x3b6164626d616c000000000000000000000000000000000000000000000000003b6164626d614c,
  0x3b676e616c0000000000000000000000000000000000000000000000000000003b676e614c,
  0x3b656c676e616c00000000000000000000000000000000000000000000000000003b64676e616c,
  0x3b6672746563616c70614c000000000000000000000000000000000000000000000000000000003b70616c,
  0x6f7571616c00000000000000000000000000000000000000000000000000003b6f7571616c,
  0x3b7272416c0000000000000000000000000000000000000000000000000000003b7272614c,
  0x3b627272616c0000000000000000000000000000000000000000000000000000003b7272616c,
  0x3b73667272616c0000000000000000000000000000000000000000000000003b7366627272616c,
  0x3b706c7272616c000000000000000000000000000000000000000000000000003b6b687272616c,
  0x3b6d69737272616c000000000000000000000000000000000000000000000000003b6c707272616c,
  0x3b74616c000000000000000000000000000000000000000000000000003b6c747272616c,
  0x3b6c696174616c000000000000000000000000000000000000000000000000003b6c696174416c,
  0x3b736574616c0000000000000000000000000000000000000000000000000000003b6574616c,
  0x3b727261626c00000000000000000000000000000000000000000000000000003b727261426c,
  0x3b65636172626c00000000000000000000000000000000000000000000000000003b6b7262626c,
  0x3b656b72626c000000000000000000000000000000000000000000000000003b6b636172626c,
  0x3b756c736b72626c0000000000000000000000000000000000000000000000003b646c736b72626c,
  0x3b6e6f7261636c000000000000000000000000000000000000000000000000003b6e6f7261634c,
  0x3b6c696465636c000000000000000000000000000000000000000000000000003b6c696465634c,
  0x3b6275636c00000000000000000000000000000000000000000000000000003b6c6965636c,
  0x3b79636c000000000000000000000000000000000000000000000000000000003b79634c,
  0x3b6f7571646c0000000000000000000000000000000000000000000000000000003b6163646c,
  0x3b7261686472646c000000000000000000000000000000000000000000000000003b726f7571646c,
  0x3b6873646c00000000000000000000000000000000000000000000003b726168737572646c,
  0x3b656c00000000000000000000000000000000000000000000000000000000003b456c,
  0x3b776f7272417466654c0000000000000000000000000000003b74656b63617242656c676e417466654c,
  0x3b776f7272617466656c000000000000000000000000000000000000000000003b776f7272617466654c,
  0x3b776f7272417468676952776f7272417466654c000000000000000000000000000000000000003b726142776f7272417466654c,
  0x3b676e696c6965437466654c0000000000000000000000000000000000003b6c696174776f7272617466656c,
  0x3b726f746365566565546e776f447466654c00000000000000000000000000003b74656b63617242656c62756f447466654c,
  0x3b726142726f746365566e776f447466654c00000000000000000000000000000000003b726f746365566e776f447466654c,
  0x3b6e776f646e6f6f707261687466656c000000000000000000000000000000000000000000003b726f6f6c467466654c,
  0x3b73776f7272617466656c7466656c0000000000000000000000000000000000003b70756e6f6f707261687466656c,
  0x3b776f72726174686769727466654c00000000000000000000000000000000003b776f72724174686769527466654c,
  0x3b73776f72726174686769727466656c00000000000000000000000000000000003b776f72726174686769727466656c,
  0x3b776f727261676975717374686769727466656c00000000000000000000000000003b736e6f6f7072616874686769727466656c,
  0x3b6565547466654c000000000000000000000000000000003b726f7463655674686769527466654c,
  0x3b726f746365566565547466654c000000000000000000000000000000000000003b776f7272416565547466654c,
  0x3b656c676e616972547466654c00000000000000000000000000000000003b73656d697465657268747466656c,
  0x3b6c61757145656c676e616972547466654c000000000000000000000000000000003b726142656c676e616972547466654c,
  0x3b726f7463655665655470557466654c0000000000000000000000000000003b726f746365566e776f4470557466654c,
  0x3b726142726f7463655670557466654c000000000000000000000000000000000000003b726f7463655670557466654c,
  0x3b726142726f746365567466654c0000000000000000000000000000000000000000003b726f746365567466654c,
  0x3b67656c000000000000000000000000000000000000000000000000000000003b67456c,
  0x3b7171656c000000000000000000000000000000000000000000000000000000003b71656c,
  0x3b73656c00000000000000000000000000000000000000000000003b746e616c7371656c,
  0x3b746f6473656c00000000000000000000000000000000000000000000000000003b636373656c,
  0x3b726f746f6473656c0000000000000000000000000000000000000000000000003b6f746f6473656c,
  0x3b73656773656c0000000000000000000000000000000000000000000000000000003b6773656c,
  0x3b746f647373656c0000000000000000000000000000000000000000003b786f727070617373656c,
  0x3b7274677171657373656c000000000000000000000000000000000000000000003b72746771657373656c,
  0x3b6c617571456c6c75467373654c0000000000000000000000000000003b726574616572476c617571457373654c,
  0x3b7274677373656c00000000000000000000000000000000000000003b726574616572477373654c,
  0x3b6d69737373656c00000000000000000000000000000000000000000000003b7373654c7373654c,
  0x3b65646c69547373654c00000000000000000000000000000000003b6c61757145746e616c537373654c,
  0x3b726f6f6c666c000000000000000000000000000000000000000000000000003b74687369666c,
  0x3b72666c000000000000000000000000000000000000000000000000000000003b72664c,
  0x3b45676c00000000000000000000000000000000000000000000000000000000003b676c,
  0x3b647261686c0000000000000000000000000000000000000000000000000000003b7261486c,
  0x3b6c757261686c00000000000000000000000000000000000000000000000000003b757261686c,
  0x3b79634a4c00000000000000000000000000000000000000000000000000003b6b6c62686c,
  0x3b6c4c0000000000000000000000000000000000000000000000000000003b79636a6c,
  0x3b7272616c6c00000000000000000000000000000000000000000000000000000000003b6c6c,
  0x3b776f7272617466656c4c00000000000000000000000000000000000000000000003b72656e726f636c6c,
  0x3b6972746c6c000000000000000000000000000000000000000000000000003b647261686c6c,
  0x3b746f64696d6c000000000000000000000000000000000000000000000000003b746f64696d4c,
  0x3b656863617473756f6d6c000000000000000000000000000000000000000000000000003b7473756f6d6c,
  0x3b786f727070616e6c0000000000000000000000000000000000000000000000000000003b70616e6c,
  0x3b656e6c000000000000000000000000000000000000000000000000000000003b456e6c,
  0x3b7171656e6c0000000000000000000000000000000000000000000000000000003b71656e6c,
  0x3b676e616f6c00000000000000000000000000000000000000000000000000003b6d69736e6c,
  0x3b6b72626f6c00000000000000000000000000000000000000000000000000003b7272616f6c,
  0x3b776f7272617466656c676e6f4c0000000000000000000000000000000000003b776f7272417466654c676e6f4c,
  0x3b776f72724174686769527466654c676e6f4c0000000000000000000000000000000000003b776f7272617466656c676e6f6c,
  0x3b776f72726174686769727466656c676e6f6c000000000000000000000000003b776f72726174686769727466656c676e6f4c,
  0x3b776f7272417468676952676e6f4c0000000000000000000000000000000000000000003b6f747370616d676e6f6c,
  0x3b776f7272617468676972676e6f6c00000000000000000000000000000000003b776f7272617468676972676e6f4c,
  0x3b7468676972776f727261706f6f6c0000000000000000000000000000000000003b7466656c776f727261706f6f6c,
  0x3b66706f4c00000000000000000000000000000000000000000000000000003b7261706f6c,
  0x3b73756c706f6c0000000000000000000000000000000000000000000000000000003b66706f6c,
  0x3b747361776f6c0000000000000000000000000000000000000000000000003b73656d69746f6c,
  0x3b776f7272417466654c7265776f4c000000000000000000000000000000000000000000000000003b726162776f6c,
  0x3b7a6f6c000000000000000000000000000000003b776f72724174686769527265776f4c,
  0x3b667a6f6c0000000000000000000000000000000000000000000000003b65676e657a6f6c,
  0x3b746c7261706c0000000000000000000000000000000000000000000000000000003b7261706c,
  0x3b72656e726f63726c00000000000000000000000000000000000000000000000000003b727261726c,
  0x3b64726168726c00000000000000000000000000000000000000000000000000003b726168726c,
  0x3b697274726c000000000000000000000000000000000000000000000000000000003b6d726c,
  0x3b7263734c000000000000000000000000000000000000000000000000003b6f757161736c,
  0x3b68734c0000000000000000000000000000000000000000000000000000003b7263736c,
  0x3b6d69736c000000000000000000000000000000000000000000000000000000003b68736c,
  0x3b676d69736c00000000000000000000000000000000000000000000000000003b656d69736c,
  0x3b6f7571736c0000000000000000000000000000000000000000000000000000003b6271736c,
  0x3b6b6f7274734c000000000000000000000000000000000000000000000000003b726f7571736c,
  0x3b544c000000000000000000000000000000000000000000000000003b6b6f7274736c,
  0x3b744c000000000000000000000000000000000000000000000000000000000000544c,
  0x746c00000000000000000000000000000000000000000000000000000000003b746c,
  0x3b726963746c0000000000000000000000000000000000000000000000000000003b6363746c,
  0x3b65657268746c00000000000000000000000000000000000000000000000000003b746f64746c,
  0x3b7272616c746c000000000000000000000000000000000000000000000000003b73656d69746c,
  0x3b6972746c0000000000000000000000000000000000000000000000003b7473657571746c,
  0x3b666972746c00000000000000000000000000000000000000000000000000003b656972746c,
  0x3b726168736472756c000000000000000000000000000000000000000000000000003b72615072746c,
  0x3b7171656e747265766c0000000000000000000000000000000000000000000000003b7261687572756c,
  0x3b7263616d0000000000000000000000000000000000000000000000000000003b456e766c,
  0x3b656c616d000000000000000000000000000000000000000000000000000000007263616d,
  0x3b657365746c616d0000000000000000000000000000000000000000000000000000003b746c616d,
  0x3b70616d000000000000000000000000000000000000000000000000000000003b70614d,
  0x3b6e776f646f747370616d000000000000000000000000000000000000000000000000003b6f747370616d,
  0x3b70756f747370616d0000000000000000000000000000000000000000003b7466656c6f747370616d,
  0x3b616d6d6f636d000000000000000000000000000000000000000000000000003b72656b72616d,
  0x3b79636d000000000000000000000000000000000000000000000000000000003b79634d,
  0x3b746f44446d00000000000000000000000000000000000000000000000000003b687361646d,
  0x3b65636170536d756964654d0000000000000000000000000000000000003b656c676e61646572757361656d,
  0x3b72664d000000000000000000000000000000000000000000003b6672746e696c6c654d,
  0x3b6f686d000000000000000000000000000000000000000000000000000000003b72666d,
  0x6f7263696d00000000000000000000000000000000000000000000000000003b6f7263696d,
  0x3b74736164696d000000000000000000000000000000000000000000000000000000003b64696d,
  0x3b746f6464696d000000000000000000000000000000000000000000000000003b72696364696d,
  0x3b73756e696d0000000000000000000000000000000000000000000000000000746f6464696d,
  0x3b6473756e696d000000000000000000000000000000000000000000000000003b6273756e696d,
  0x3b73756c5073756e694d0000000000000000000000000000000000000000000000003b756473756e696d,
  0x3b72646c6d0000000000000000000000000000000000000000000000000000003b70636c6d,
  0x3b736c65646f6d000000000000000000000000000000000000000000000000003b73756c706e6d,
  0x3b66706f6d0000000000000000000000000000000000000000000000000000003b66706f4d,
  0x3b7263734d00000000000000000000000000000000000000000000000000000000003b706d,
  0x3b736f7074736d0000000000000000000000000000000000000000000000000000003b7263736d,
  0x3b756d00000000000000000000000000000000000000000000000000000000003b754d,
  0x3b70616d756d00000000000000000000000000000000000000000000003b70616d69746c756d,
  0x3b65747563614e00000000000000000000000000000000000000000000000000003b616c62616e,
  0x3b676e616e000000000000000000000000000000000000000000000000003b65747563616e,
  0x3b4570616e000000000000000000000000000000000000000000000000000000003b70616e,
  0x3b736f70616e00000000000000000000000000000000000000000000000000003b646970616e,
  0x3b727574616e0000000000000000000000000000000000000000000000003b786f727070616e,
  0x3b736c61727574616e0000000000000000000000000000000000000000000000003b6c61727574616e,
  0x7073626e0000000000000000000000000000000000000000000000000000003b7073626e,
  0x3b65706d75626e00000000000000000000000000000000000000000000000000003b706d75626e,
  0x3b6e6f7261634e0000000000000000000000000000000000000000000000000000003b7061636e,
  0x3b6c696465634e000000000000000000000000000000000000000000000000003b6e6f7261636e,
  0x3b676e6f636e000000000000000000000000000000000000000000000000003b6c696465636e,
  0x3b7075636e00000000000000000000000000000000000000000000003b746f64676e6f636e,
  0x3b79636e000000000000000000000000000000000000000000000000000000003b79634e,
  0x3b656e00000000000000000000000000000000000000000000000000003b687361646e,
  0x3b727241656e000000000000000000000000000000000000000000000000003b6b687261656e,
  0x3b776f727261656e00000000000000000000000000000000000000000000000000003b727261656e,
  0x3b65636170536d756964654d657669746167654e00000000000000000000000000000000000000000000000000003b746f64656e,
  0x3b65636170536e696854657669746167654e000000000000000000000000003b65636170536b63696854657669746167654e,
  0x3b76697571656e000000000000000000003b65636170536e69685479726556657669746167654e,
  0x3b6d6973656e000000000000000000000000000000000000000000000000003b72616573656e,
  0x3b7373654c7373654c64657473654e00000000000000000000003b726574616572477265746165724764657473654e,
  0x3b74736978656e0000000000000000000000000000000000000000000000003b656e694c77654e,
  0x3b72664e0000000000000000000000000000000000000000000000003b7374736978656e,
  0x3b45676e000000000000000000000000000000000000000000000000000000003b72666e,
  0x3b7165676e000000000000000000000000000000000000000000000000000000003b65676e,
  0x3b746e616c737165676e00000000000000000000000000000000000000000000000000003b717165676e,
  0x3b67476e0000000000000000000000000000000000000000000000000000003b7365676e,
  0x3b74476e00000000000000000000000000000000000000000000000000003b6d6973676e,
  0x3b7274676e000000000000000000000000000000000000000000000000000000003b74676e,
  0x3b727241686e0000000000000000000000000000000000000000000000000000003b7674476e,
  0x3b726170686e00000000000000000000000000000000000000000000000000003b727261686e,
  0x3b73696e00000000000000000000000000000000000000000000000000000000003b696e,
  0x3b76696e0000000000000000000000000000000000000000000000000000003b6473696e,
  0x3b79636a6e0000000000000000000000000000000000000000000000000000003b79634a4e,
  0x3b7272616c6e00000000000000000000000000000000000000000000000000003b7272416c6e,
  0x3b456c6e0000000000000000000000000000000000000000000000000000003b72646c6e,
  0x3b776f7272617466654c6e000000000000000000000000000000000000000000000000000000003b656c6e,
  0x3b776f72726174686769727466654c6e0000000000000000000000000000000000000000003b776f7272617466656c6e,
  0x3b71656c6e000000000000000000000000000000003b776f72726174686769727466656c6e,
  0x3b746e616c7371656c6e00000000000000000000000000000000000000000000000000003b7171656c6e,
  0x3b7373656c6e0000000000000000000000000000000000000000000000000000003b73656c6e,
  0x3b6d69736c6e000000000000000000000000000000000000000000000000000000003b6c4c6e,
  0x3b746c6e000000000000000000000000000000000000000000000000000000003b744c6e,
  0x3b656972746c6e00000000000000000000000000000000000000000000000000003b6972746c6e,
  0x3b64696d6e0000000000000000000000000000000000000000000000000000003b76744c6e,
  0x3b6563617053676e696b616572426e6f4e0000000000000000000000000000000000000000000000003b6b616572426f4e,
  0x3b66706f6e0000000000000000000000000000000000000000000000000000003b66706f4e,
  0x3b746f6e000000000000000000000000000000000000000000000000000000003b746f4e,
  0x3b746e657572676e6f43746f4e0000000000000000000000000000000000000000000000000000000000746f6e,
  0x3b7261426c61636974726556656c62756f44746f4e000000000000000000000000000000000000000000003b706143707543746f4e,
  0x3b6c61757145746f4e0000000000000000000000000000000000000000003b746e656d656c45746f4e,
  0x3b737473697845746f4e0000000000000000000000000000000000003b65646c69546c61757145746f4e,
  0x3b6c6175714572657461657247746f4e0000000000000000000000000000000000000000003b72657461657247746f4e,
  0x3b7265746165724772657461657247746f4e0000000000000000000000003b6c617571456c6c754672657461657247746f4e,
  0x3b6c61757145746e616c5372657461657247746f4e00000000000000000000000000000000003b7373654c72657461657247746f4e,
  0x3b706d75486e776f44706d7548746f4e000000000000000000000000000000003b65646c695472657461657247746f4e,
  0x3b6e69746f6e000000000000000000000000000000000000003b6c61757145706d7548746f4e,
  0x3b456e69746f6e00000000000000000000000000000000000000000000003b746f646e69746f6e,
  0x3b62766e69746f6e0000000000000000000000000000000000000000000000003b61766e69746f6e,
  0x3b656c676e616972547466654c746f4e0000000000000000000000000000000000000000000000003b63766e69746f6e,
  0x3b6c61757145656c676e616972547466654c746f4e000000000000000000000000003b726142656c676e616972547466654c746f4e,
  0x3b6c617571457373654c746f4e0000000000000000000000000000000000000000000000003b7373654c746f4e,
  0x3b7373654c7373654c746f4e00000000000000000000000000000000003b726574616572477373654c746f4e,
  0x3b65646c69547373654c746f4e00000000000000000000000000003b6c61757145746e616c537373654c746f4e,
  0x3b7373654c7373654c64657473654e746f4e00000000000000003b726574616572477265746165724764657473654e746f4e,
  0x3b6176696e746f6e00000000000000000000000000000000000000000000000000003b696e746f6e,
  0x3b6376696e746f6e0000000000000000000000000000000000000000000000003b6276696e746f6e,
  0x3b6c617571457365646563657250746f4e00000000000000000000000000000000000000003b7365646563657250746f4e,
  0x3b746e656d656c4565737265766552746f4e000000000000000000003b6c61757145746e616c537365646563657250746f4e,
  0x3b726142656c676e616972547468676952746f4e0000000000000000000000000000003b656c676e616972547468676952746f4e,
  0x3b746573627553657261757153746f4e000000000000000000003b6c61757145656c676e616972547468676952746f4e,
  0x3b7465737265707553657261757153746f4e00000000000000000000003b6c61757145746573627553657261757153746f4e,
  0x3b746573627553746f4e0000000000000000003b6c617571457465737265707553657261757153746f4e,
  0x3b7364656563637553746f4e00000000000000000000000000000000003b6c61757145746573627553746f4e,
  0x3b6c61757145746e616c537364656563637553746f4e0000000000000000000000000000003b6c617571457364656563637553746f4e,
  0x3b7465737265707553746f4e0000000000000000000000000000003b65646c69547364656563637553746f4e,
  0x3b65646c6954746f4e0000000000000000000000000000003b6c617571457465737265707553746f4e,
  0x3b6c617571456c6c754665646c6954746f4e0000000000000000000000000000000000003b6c6175714565646c6954746f4e,
  0x3b7261426c61636974726556746f4e0000000000000000000000000000000000003b65646c695465646c6954746f4e,
  0x3b6c656c6c617261706e0000000000000000000000000000000000000000000000000000003b7261706e,
  0x3b747261706e000000000000000000000000000000000000000000000000003b6c737261706e,
  0x3b72706e0000000000000000000000000000000000000000000000003b746e696c6f706e,
  0x3b6572706e000000000000000000000000000000000000000000000000003b65756372706e,
  0x3b7165636572706e00000000000000000000000000000000000000000000000000003b636572706e,
  0x3b727261726e00000000000000000000000000000000000000000000000000003b727241726e,
  0x3b77727261726e000000000000000000000000000000000000000000000000003b63727261726e,
  0x3b776f72726174686769726e00000000000000000000000000000000000000003b776f72726174686769526e,
  0x3b65697274726e00000000000000000000000000000000000000000000000000003b697274726e,
  0x3b65756363736e000000000000000000000000000000000000000000000000000000003b63736e,
  0x3b7263734e0000000000000000000000000000000000000000000000000000003b6563736e,
  0x3b64696d74726f68736e0000000000000000000000000000000000000000000000000000003b7263736e,
  0x3b6d69736e00000000000000000000000000000000003b6c656c6c6172617074726f68736e,
  0x3b71656d69736e00000000000000000000000000000000000000000000000000003b656d69736e,
  0x3b726170736e00000000000000000000000000000000000000000000000000003b64696d736e,
  0x3b6570757371736e0000000000000000000000000000000000000000000000003b6562757371736e,
  0x3b456275736e0000000000000000000000000000000000000000000000000000003b6275736e,
  0x3b7465736275736e00000000000000000000000000000000000000000000000000003b656275736e,
  0x3b7171657465736275736e000000000000000000000000000000000000000000003b71657465736275736e,
  0x3b7165636375736e00000000000000000000000000000000000000000000000000003b636375736e,
  0x3b457075736e0000000000000000000000000000000000000000000000000000003b7075736e,
  0x3b7465737075736e00000000000000000000000000000000000000000000000000003b657075736e,
  0x3b7171657465737075736e000000000000000000000000000000000000000000003b71657465737075736e,
  0x3b65646c69744e0000000000000000000000000000000000000000000000000000003b6c67746e,
  0x3b65646c69746e000000000000000000000000000000000000000000000000000065646c69744e,
  0x3b676c746e000000000000000000000000000000000000000000000000000065646c69746e,
  0x3b71657466656c656c676e616972746e0000000000000000000000000000000000003b7466656c656c676e616972746e,
  0x3b71657468676972656c676e616972746e00000000000000000000000000000000003b7468676972656c676e616972746e,
  0x3b756e00000000000000000000000000000000000000000000000000000000003b754e,
  0x3b6f72656d756e000000000000000000000000000000000000000000000000000000003b6d756e,
  0x3b7061766e00000000000000000000000000000000000000000000000000003b70736d756e,
  0x3b68736164566e000000000000000000000000000000000000000000000000003b68736144566e,
  0x3b68736164766e000000000000000000000000000000000000000000000000003b68736144766e,
  0x3b7467766e0000000000000000000000000000000000000000000000000000003b6567766e,
  0x3b6e69666e69766e000000000000000000000000000000000000000000000000003b72726148766e,
  0x3b656c766e000000000000000000000000000000000000000000000000003b7272416c766e,
  0x3b656972746c766e0000000000000000000000000000000000000000000000000000003b746c766e,
  0x3b6569727472766e000000000000000000000000000000000000000000000000003b72724172766e,
  0x3b6b687261776e00000000000000000000000000000000000000000000000000003b6d6973766e,
  0x3b727261776e00000000000000000000000000000000000000000000000000003b727241776e,
  0x3b7261656e776e0000000000000000000000000000000000000000000000003b776f727261776e,
  0x65747563614f000000000000000000000000000000000000000000000000003b65747563614f,
  0x65747563616f000000000000000000000000000000000000000000000000003b65747563616f,
  0x3b7269636f0000000000000000000000000000000000000000000000000000003b7473616f,
  0x637269634f00000000000000000000000000000000000000000000000000003b637269634f,
  0x637269636f00000000000000000000000000000000000000000000000000003b637269636f,
  0x3b79636f000000000000000000000000000000000000000000000000000000003b79634f,
  0x3b63616c62644f00000000000000000000000000000000000000000000000000003b687361646f,
  0x3b7669646f000000000000000000000000000000000000000000000000003b63616c62646f,
  0x3b646c6f73646f0000000000000000000000000000000000000000000000000000003b746f646f,
  0x3b67696c656f00000000000000000000000000000000000000000000000000003b67696c454f,
  0x3b72664f00000000000000000000000000000000000000000000000000003b726963666f,
  0x3b6e6f676f000000000000000000000000000000000000000000000000000000003b72666f,
  0x65766172674f000000000000000000000000000000000000000000000000003b65766172674f,
  0x65766172676f000000000000000000000000000000000000000000000000003b65766172676f,
  0x3b726162686f000000000000000000000000000000000000000000000000000000003b74676f,
  0x3b746e696f000000000000000000000000000000000000000000000000000000003b6d686f,
  0x3b7269636c6f00000000000000000000000000000000000000000000000000003b7272616c6f,
  0x3b656e696c6f0000000000000000000000000000000000000000000000003b73736f72636c6f,
  0x3b7263616d4f000000000000000000000000000000000000000000000000000000003b746c6f,
  0x3b6167656d4f00000000000000000000000000000000000000000000000000003b7263616d6f,
  0x3b6e6f7263696d4f00000000000000000000000000000000000000000000000000003b6167656d6f,
  0x3b64696d6f0000000000000000000000000000000000000000000000003b6e6f7263696d6f,
  0x3b66706f4f000000000000000000000000000000000000000000000000003b73756e696d6f,
  0x3b7261706f0000000000000000000000000000000000000000000000000000003b66706f6f,
  0x3b65746f7551796c7275436e65704f00000000000000000000003b65746f7551656c62756f44796c7275436e65704f,
  0x3b73756c706f00000000000000000000000000000000000000000000000000003b707265706f,
  0x3b726f00000000000000000000000000000000000000000000000000000000003b724f,
  0x3b64726f00000000000000000000000000000000000000000000000000003b727261726f,
  0x3b666f726564726f00000000000000000000000000000000000000000000000000003b726564726f,
  0x6664726f0000000000000000000000000000000000000000000000000000003b6664726f,
  0x6d64726f0000000000000000000000000000000000000000000000000000003b6d64726f,
  0x3b726f726f000000000000000000000000000000000000000000000000003b666f6769726f,
  0x3b76726f0000000000000000000000000000000000000000000000003b65706f6c73726f,
  0x3b7263734f00000000000000000000000000000000000000000000000000000000003b536f,
  0x3b6873616c734f0000000000000000000000000000000000000000000000000000003b7263736f,
  0x3b6873616c736f00000000000000000000000000000000000000000000000000006873616c734f,
  0x3b6c6f736f00000000000000000000000000000000000000000000000000006873616c736f,
  0x65646c69744f000000000000000000000000000000000000000000000000003b65646c69744f,
  0x65646c69746f000000000000000000000000000000000000000000000000003b65646c69746f,
  0x3b73656d69746f000000000000000000000000000000000000000000000000003b73656d69744f,
  0x3b6c6d754f00000000000000000000000000000000000000000000003b736173656d69746f,
  0x3b6c6d756f000000000000000000000000000000000000000000000000000000006c6d754f,
  0x3b726162766f000000000000000000000000000000000000000000000000000000006c6d756f,
  0x3b65636172427265764f0000000000000000000000000000000000000000000000003b7261427265764f,
  0x3b7369736568746e657261507265764f00000000000000000000000000000000000000003b74656b636172427265764f,
  0x3b61726170000000000000000000000000000000000000000000000000000000003b726170,
  0x3b6c656c6c617261700000000000000000000000000000000000000000000000000000000061726170,
  0x3b6c73726170000000000000000000000000000000000000000000000000003b6d6973726170,
  0x3b446c6169747261500000000000000000000000000000000000000000000000000000003b74726170,
  0x3b796370000000000000000000000000000000000000000000000000000000003b796350,
  0x3b646f69726570000000000000000000000000000000000000000000000000003b746e63726570,
  0x3b70726570000000000000000000000000000000000000000000000000003b6c696d726570,
  0x3b7266500000000000000000000000000000000000000000000000003b6b6e6574726570,
  0x3b696850000000000000000000000000000000000000000000000000000000003b726670,
  0x3b76696870000000000000000000000000000000000000000000000000000000003b696870,
  0x3b656e6f6870000000000000000000000000000000000000000000000000003b74616d6d6870,
  0x3b697000000000000000000000000000000000000000000000000000000000003b6950,
  0x3b766970000000000000000000000000000000000000000000003b6b726f666863746970,
  0x3b686b636e616c70000000000000000000000000000000000000000000000000003b6b636e616c70,
  0x3b73756c70000000000000000000000000000000000000000000000000003b766b6e616c70,
  0x3b6273756c7000000000000000000000000000000000000000000000003b7269636173756c70,
  0x3b6f6473756c700000000000000000000000000000000000000000000000003b72696373756c70,
  0x3b6573756c70000000000000000000000000000000000000000000000000003b756473756c70,
  0x3b6e6d73756c70000000000000000000000000000000000000000000003b73756e694d73756c50,
  0x3b6d697373756c7000000000000000000000000000000000000000000000000000006e6d73756c70,
  0x3b6d700000000000000000000000000000000000000000000000003b6f777473756c70,
  0x3b746e69746e696f700000000000000000000000000000000000003b656e616c70657261636e696f50,
  0x3b66706f700000000000000000000000000000000000000000000000000000003b66706f50,
  0x646e756f7000000000000000000000000000000000000000000000000000003b646e756f70,
  0x3b727000000000000000000000000000000000000000000000000000000000003b7250,
  0x3b65756372700000000000000000000000000000000000000000000000000000003b70617270,
  0x3b657270000000000000000000000000000000000000000000000000000000003b457270,
  0x3b786f72707061636572700000000000000000000000000000000000000000000000000000003b63657270,
  0x3b736564656365725000000000000000000000000000000000000000003b7165796c72756363657270,
  0x3b6c61757145746e616c5373656465636572500000000000000000000000000000000000003b6c617571457365646563657250,
  0x3b7165636572700000000000000000000000000000000000003b65646c69547365646563657250,
  0x3b7171656e6365727000000000000000000000000000000000000000003b786f727070616e63657270,
  0x3b6d69736365727000000000000000000000000000000000000000000000003b6d69736e63657270,
  0x3b656d69727000000000000000000000000000000000000000000000000000003b656d697250,
  0x3b70616e7270000000000000000000000000000000000000000000000000003b73656d697270,
  0x3b6d69736e72700000000000000000000000000000000000000000000000000000003b456e7270,
  0x3b746375646f72500000000000000000000000000000000000000000000000000000003b646f7270,
  0x3b656e696c666f727000000000000000000000000000000000000000000000003b72616c61666f7270,
  0x3b706f727000000000000000000000000000000000000000000000003b66727573666f7270,
  0x3b6c616e6f6974726f706f72500000000000000000000000000000000000000000003b6e6f6974726f706f7250,
  0x3b6d69737270000000000000000000000000000000000000000000000000003b6f74706f7270,
  0x3b72637350000000000000000000000000000000000000000000000000003b6c6572757270,
  0x3b6973500000000000000000000000000000000000000000000000000000003b72637370,
  0x3b7073636e7570000000000000000000000000000000000000000000000000000000003b697370,
  0x3b726671000000000000000000000000000000000000000000000000000000003b726651,
  0x3b66706f510000000000000000000000000000000000000000000000000000003b746e6971,
  0x3b656d697270710000000000000000000000000000000000000000000000000000003b66706f71,
  0x3b726373710000000000000000000000000000000000000000000000000000003b72637351,
  0x3b746e697461757100000000000000000000000000000000000000003b736e6f696e726574617571,
  0x3b7165747365757100000000000000000000000000000000000000000000000000003b7473657571,
  0x544f55510000000000000000000000000000000000000000000000000000003b544f5551,
  0x746f75710000000000000000000000000000000000000000000000000000003b746f7571,
  0x3b6563617200000000000000000000000000000000000000000000000000003b7272614172,
  0x3b657475636172000000000000000000000000000000000000000000000000003b657475636152,
  0x3b767974706d65617200000000000000000000000000000000000000000000000000003b6369646172,
  0x3b676e61720000000000000000000000000000000000000000000000000000003b676e6152,
  0x3b65676e617200000000000000000000000000000000000000000000000000003b64676e6172,
  0x3b6f75716172000000000000000000000000000000000000000000000000003b656c676e6172,
  0x3b727261520000000000000000000000000000000000000000000000000000006f75716172,
  0x3b727261720000000000000000000000000000000000000000000000000000003b72724172,
  0x3b6272726172000000000000000000000000000000000000000000000000003b706172726172,
  0x3b63727261720000000000000000000000000000000000000000000000003b73666272726172,
  0x3b6b6872726172000000000000000000000000000000000000000000000000003b736672726172,
  0x3b6c7072726172000000000000000000000000000000000000000000000000003b706c72726172,
  0x3b6c74727261520000000000000000000000000000000000000000000000003b6d697372726172,
  0x3b7772726172000000000000000000000000000000000000000000000000003b6c7472726172,
  0x3b6c6961746172000000000000000000000000000000000000000000000000003b6c6961744172,
  0x3b736c616e6f6974617200000000000000000000000000000000000000000000000000003b6f69746172,
  0x3b727261427200000000000000000000000000000000000000000000000000003b7272614252,
  0x3b6b7262627200000000000000000000000000000000000000000000000000003b7272616272,
  0x3b6b6361726272000000000000000000000000000000000000000000000000003b656361726272,
  0x3b646c736b72627200000000000000000000000000000000000000000000000000003b656b726272,
  0x3b6e6f726163520000000000000000000000000000000000000000000000003b756c736b726272,
  0x3b6c6964656352000000000000000000000000000000000000000000000000003b6e6f72616372,
  0x3b6c69656372000000000000000000000000000000000000000000000000003b6c6964656372,
  0x3b7963520000000000000000000000000000000000000000000000000000003b62756372,
  0x3b61636472000000000000000000000000000000000000000000000000000000003b796372,
  0x3b6f757164720000000000000000000000000000000000000000000000003b726168646c6472,
  0x3b68736472000000000000000000000000000000000000000000000000003b726f75716472,
  0x3b6c61657200000000000000000000000000000000000000000000000000000000003b6552,
  0x3b747261706c6165720000000000000000000000000000000000000000000000003b656e696c616572,
  0x3b7463657200000000000000000000000000000000000000000000000000003b736c616572,
  0x474552000000000000000000000000000000000000000000000000000000003b474552,
  0x676572000000000000000000000000000000000000000000000000000000003b676572,
  0x3b6d75697262696c697571456573726576655200000000000000000000000000000000003b746e656d656c4565737265766552,
  0x3b74687369667200000000000000000000003b6d75697262696c69757145705565737265766552,
  0x3b726652000000000000000000000000000000000000000000000000003b726f6f6c6672,
  0x3b72614872000000000000000000000000000000000000000000000000000000003b726672,
  0x3b757261687200000000000000000000000000000000000000000000000000003b6472616872,
  0x3b6f6852000000000000000000000000000000000000000000000000003b6c7572616872,
  0x3b766f6872000000000000000000000000000000000000000000000000000000003b6f6872,
  0x3b776f727241746867695200000000000000000000000000003b74656b63617242656c676e417468676952,
  0x3b776f72726174686769720000000000000000000000000000000000000000003b776f7272617468676952,
  0x3b776f7272417466654c776f72724174686769520000000000000000000000000000000000003b726142776f7272417468676952,
  0x3b676e696c696543746867695200000000000000000000000000000000003b6c696174776f7272617468676972,
  0x3b726f746365566565546e776f447468676952000000000000000000000000003b74656b63617242656c62756f447468676952,
  0x3b726142726f746365566e776f447468676952000000000000000000000000000000003b726f746365566e776f447468676952,
  0x3b6e776f646e6f6f7072616874686769720000000000000000000000000000000000000000003b726f6f6c467468676952,
  0x3b73776f7272617466656c746867697200000000000000000000000000000000003b70756e6f6f707261687468676972,
  0x3b73776f7272617468676972746867697200000000000000000000000000003b736e6f6f707261687466656c7468676972,
  0x3b6565547468676952000000000000000000000000000000003b776f72726167697571737468676972,
  0x3b726f7463655665655474686769520000000000000000000000000000000000003b776f7272416565547468676952,
  0x3b656c676e616972547468676952000000000000000000000000000000003b73656d697465657268747468676972,
  0x3b6c61757145656c676e6169725474686769520000000000000000000000000000003b726142656c676e616972547468676952,
  0x3b726f746365566565547055746867695200000000000000000000000000003b726f746365566e776f4470557468676952,
  0x3b726142726f74636556705574686769520000000000000000000000000000000000003b726f7463655670557468676952,
  0x3b726142726f74636556746867695200000000000000000000000000000000000000003b726f746365567468676952,
  0x3b716573746f64676e697369720000000000000000000000000000000000000000000000000000003b676e6972,
  0x3b7261686c7200000000000000000000000000000000000000000000000000003b7272616c72,
  0x3b7473756f6d72000000000000000000000000000000000000000000000000000000003b6d6c72,
  0x3b64696d6e720000000000000000000000000000000000000000003b656863617473756f6d72,
  0x3b7272616f7200000000000000000000000000000000000000000000000000003b676e616f72,
  0x3b7261706f7200000000000000000000000000000000000000000000000000003b6b72626f72,
  0x3b66706f720000000000000000000000000000000000000000000000000000003b66706f52,
  0x3b73656d69746f72000000000000000000000000000000000000000000000000003b73756c706f72,
  0x3b72617072000000000000000000000000000000000000003b7365696c706d49646e756f52,
  0x3b746e696c6f707072000000000000000000000000000000000000000000000000003b746772617072,
  0x3b776f72726174686769725200000000000000000000000000000000000000000000000000003b7272617272,
  0x3b72637352000000000000000000000000000000000000000000000000003b6f7571617372,
  0x3b6873520000000000000000000000000000000000000000000000000000003b72637372,
  0x3b62717372000000000000000000000000000000000000000000000000000000003b687372,
  0x3b726f7571737200000000000000000000000000000000000000000000000000003b6f75717372,
  0x3b73656d697472000000000000000000000000000000000000000000000000003b656572687472,
  0x3b65697274720000000000000000000000000000000000000000000000000000003b69727472,
  0x3b6972746c6972747200000000000000000000000000000000000000000000000000003b6669727472,
  0x3b726168756c757200000000000000000000000000000000000000003b646579616c6544656c7552,
  0x3b65747563615300000000000000000000000000000000000000000000000000000000003b7872,
  0x3b6f75716273000000000000000000000000000000000000000000000000003b657475636173,
  0x3b637300000000000000000000000000000000000000000000000000000000003b6353,
  0x3b6e6f726163530000000000000000000000000000000000000000000000000000003b70616373,
  0x3b6575636373000000000000000000000000000000000000000000000000003b6e6f72616373,
  0x3b656373000000000000000000000000000000000000000000000000000000003b456373,
  0x3b6c6964656373000000000000000000000000000000000000000000000000003b6c6964656353,
  0x3b637269637300000000000000000000000000000000000000000000000000003b6372696353,
  0x3b456e637300000000000000000000000000000000000000000000000000003b70616e6373,
  0x3b746e696c6f706373000000000000000000000000000000000000000000000000003b6d69736e6373,
  0x3b79635300000000000000000000000000000000000000000000000000003b6d69736373,
  0x3b746f6473000000000000000000000000000000000000000000000000000000003b796373,
  0x3b65746f647300000000000000000000000000000000000000000000000000003b62746f6473,
  0x3b7272416573000000000000000000000000000000000000000000000000003b6b6872616573,
  0x3b776f727261657300000000000000000000000000000000000000000000000000003b7272616573,
  0x746365730000000000000000000000000000000000000000000000000000003b74636573,
  0x3b7261777365730000000000000000000000000000000000000000000000000000003b696d6573,
  0x3b6e6d74657300000000000000000000000000000000000000000000003b73756e696d746573,
  0x3b7266530000000000000000000000000000000000000000000000000000003b74786573,
  0x3b6e776f726673000000000000000000000000000000000000000000000000000000003b726673,
  0x3b79634843485300000000000000000000000000000000000000000000000000003b7072616873,
  0x3b79634853000000000000000000000000000000000000000000000000003b796368636873,
  0x3b776f7272416e776f4474726f68530000000000000000000000000000000000000000000000000000003b79636873,
  0x3b64696d74726f687300000000000000000000000000000000003b776f7272417466654c74726f6853,
  0x3b776f727241746867695274726f68530000000000000000000000000000000000003b6c656c6c6172617074726f6873,
  0x3b796873000000000000000000000000000000000000003b776f727241705574726f6853,
  0x3b616d6769530000000000000000000000000000000000000000000000000000000000796873,
  0x3b66616d67697300000000000000000000000000000000000000000000000000003b616d676973,
  0x3b6d6973000000000000000000000000000000000000000000000000003b76616d676973,
  0x3b656d6973000000000000000000000000000000000000000000000000003b746f646d6973,
  0x3b676d697300000000000000000000000000000000000000000000000000003b71656d6973,
  0x3b6c6d697300000000000000000000000000000000000000000000000000003b45676d6973,
  0x3b656e6d697300000000000000000000000000000000000000000000000000003b456c6d6973,
  0x3b727261726d69730000000000000000000000000000000000000000000000003b73756c706d6973,
  0x3b656c637269436c6c616d5300000000000000000000000000000000000000000000000000003b7272616c73,
  0x3b706873616d730000000000000000000000000000000000003b73756e696d7465736c6c616d73,
  0x3b64696d7300000000000000000000000000000000000000000000003b6c73726170656d73,
  0x3b746d7300000000000000000000000000000000000000000000000000003b656c696d73,
  0x3b7365746d730000000000000000000000000000000000000000000000000000003b65746d73,
  0x3b796374666f73000000000000000000000000000000000000000000000000003b796354464f53,
  0x3b626c6f73000000000000000000000000000000000000000000000000000000003b6c6f73,
  0x3b66706f53000000000000000000000000000000000000000000000000003b7261626c6f73,
  0x3b7365646170730000000000000000000000000000000000000000000000000000003b66706f73,
  0x3b72617073000000000000000000000000000000000000000000003b746975736564617073,
  0x3b73706163717300000000000000000000000000000000000000000000000000003b7061637173,
  0x3b73707563717300000000000000000000000000000000000000000000000000003b7075637173,
  0x3b62757371730000000000000000000000000000000000000000000000000000003b74727153,
  0x3b7465736275737173000000000000000000000000000000000000000000000000003b656275737173,
  0x3b70757371730000000000000000000000000000000000000000003b71657465736275737173,
  0x3b7465737075737173000000000000000000000000000000000000000000000000003b657075737173,
  0x3b7571730000000000000000000000000000000000000000003b71657465737075737173,
  0x3b657261757173000000000000000000000000000000000000000000000000003b657261757153,
  0x3b746573627553657261757153000000000000000000000000003b6e6f69746365737265746e49657261757153,
  0x3b746573726570755365726175715300000000000000000000000000003b6c61757145746573627553657261757153,
  0x3b6e6f696e556572617571530000000000000000000000003b6c617571457465737265707553657261757153,
  0x3b66757173000000000000000000000000000000000000000000000000003b667261757173,
  0x3b7263735300000000000000000000000000000000000000000000000000003b7272617273,
  0x3b6e6d746573730000000000000000000000000000000000000000000000000000003b72637373,
  0x3b667261747373000000000000000000000000000000000000000000000000003b656c696d7373,
  0x3b726174730000000000000000000000000000000000000000000000000000003b72617453,
  0x3b6e6f6c69737065746867696172747300000000000000000000000000000000000000000000000000003b6672617473,
  0x3b736e72747300000000000000000000000000000000000000003b6968707468676961727473,
  0x3b627573000000000000000000000000000000000000000000000000000000003b627553,
  0x3b45627573000000000000000000000000000000000000000000000000003b746f64627573,
  0x3b746f64656275730000000000000000000000000000000000000000000000000000003b65627573,
  0x3b456e6275730000000000000000000000000000000000000000000000003b746c756d627573,
  0x3b73756c7062757300000000000000000000000000000000000000000000000000003b656e627573,
  0x3b7465736275530000000000000000000000000000000000000000000000003b72726172627573,
  0x3b7165746573627573000000000000000000000000000000000000000000000000003b746573627573,
  0x3b6c61757145746573627553000000000000000000000000000000000000000000003b717165746573627573,
  0x3b7171656e746573627573000000000000000000000000000000000000000000003b71656e746573627573,
  0x3b627573627573000000000000000000000000000000000000000000000000003b6d6973627573,
  0x3b63637573000000000000000000000000000000000000000000000000003b707573627573,
  0x3b7165796c727563636375730000000000000000000000000000000000000000003b786f7270706163637573,
  0x3b6c61757145736465656363755300000000000000000000000000000000000000000000003b7364656563637553,
  0x3b65646c69547364656563637553000000000000000000000000003b6c61757145746e616c537364656563637553,
  0x3b786f727070616e63637573000000000000000000000000000000000000000000000000003b716563637573,
  0x3b6d69736e6363757300000000000000000000000000000000000000000000003b7171656e63637573,
  0x3b74616854686375530000000000000000000000000000000000000000000000003b6d697363637573,
  0x3b6d7573000000000000000000000000000000000000000000000000000000003b6d7553,
  0x3b7075530000000000000000000000000000000000000000000000000000003b676e7573,
  0x3b31707573000000000000000000000000000000000000000000000000000000003b707573,
  0x3b327075730000000000000000000000000000000000000000000000000000000031707573,
  0x3b337075730000000000000000000000000000000000000000000000000000000032707573,
  0x3b746f647075730000000000000000000000000000000000000000000000000000000033707573,
  0x3b457075730000000000000000000000000000000000000000000000003b62757364707573,
  0x3b746f64657075730000000000000000000000000000000000000000000000000000003b65707573,
  0x3b6c61757145746573726570755300000000000000000000000000000000000000000000003b7465737265707553,
  0x3b627573687075730000000000000000000000000000000000000000000000003b6c6f7368707573,
  0x3b746c756d7075730000000000000000000000000000000000000000000000003b7272616c707573,
  0x3b656e70757300000000000000000000000000000000000000000000000000003b456e707573,
  0x3b7465737075530000000000000000000000000000000000000000000000003b73756c70707573,
  0x3b7165746573707573000000000000000000000000000000000000000000000000003b746573707573,
  0x3b71656e746573707573000000000000000000000000000000000000000000003b717165746573707573,
  0x3b6d69737075730000000000000000000000000000000000000000003b7171656e746573707573,
  0x3b707573707573000000000000000000000000000000000000000000000000003b627573707573,
  0x3b7272417773000000000000000000000000000000000000000000000000003b6b6872617773,
  0x3b776f727261777300000000000000000000000000000000000000000000000000003b7272617773,
  0x3b67696c7a73000000000000000000000000000000000000000000000000003b7261776e7773,
  0x3b62615400000000000000000000000000000000000000000000000000000067696c7a73,
  0x3b756154000000000000000000000000000000000000000000000000003b746567726174,
  0x3b6b726274000000000000000000000000000000000000000000000000000000003b756174,
  0x3b6e6f72616374000000000000000000000000000000000000000000000000003b6e6f72616354,
  0x3b6c6964656374000000000000000000000000000000000000000000000000003b6c6964656354,
  0x3b796374000000000000000000000000000000000000000000000000000000003b796354,
  0x3b6365726c65740000000000000000000000000000000000000000000000000000003b746f6474,
  0x3b726674000000000000000000000000000000000000000000000000000000003b726654,
  0x3b65726f666572656854000000000000000000000000000000000000000000000000003b346572656874,
  0x3b6174656854000000000000000000000000000000000000000000003b65726f666572656874,
  0x3b6d7973617465687400000000000000000000000000000000000000000000000000003b6174656874,
  0x3b786f727070616b63696874000000000000000000000000000000000000000000000000003b766174656874,
  0x3b65636170536b6369685400000000000000000000000000000000000000000000003b6d69736b63696874,
  0x3b65636170536e696854000000000000000000000000000000000000000000000000003b70736e696874,
  0x3b6d69736b687400000000000000000000000000000000000000000000000000003b70616b6874,
  0x4e524f485400000000000000000000000000000000000000000000000000003b4e524f4854,
  0x6e726f687400000000000000000000000000000000000000000000000000003b6e726f6874,
  0x3b65646c697400000000000000000000000000000000000000000000000000003b65646c6954,
  0x3b6c617571456c6c754665646c69540000000000000000000000000000000000000000003b6c6175714565646c6954,
  0x3b73656d69740000000000000000000000000000000000000000003b65646c695465646c6954,
  0x3b6273656d697400000000000000000000000000000000000000000000000000000073656d6974,
  0x3b6473656d697400000000000000000000000000000000000000000000003b72616273656d6974,
  0x3b61656f740000000000000000000000000000000000000000000000000000003b746e6974,
  0x3b746f62706f74000000000000000000000000000000000000000000000000000000003b706f74,
  0x3b66706f54000000000000000000000000000000000000000000000000003b726963706f74,
  0x3b6b726f66706f740000000000000000000000000000000000000000000000000000003b66706f74,
  0x3b656d697270740000000000000000000000000000000000000000000000000000003b61736f74,
  0x3b656461727400000000000000000000000000000000000000000000000000003b4544415254,
  0x3b6e776f64656c676e6169727400000000000000000000000000000000000000000000003b656c676e61697274,
  0x3b71657466656c656c676e61697274000000000000000000000000000000000000003b7466656c656c676e61697274,
  0x3b7468676972656c676e61697274000000000000000000000000000000000000000000003b71656c676e61697274,
  0x3b746f64697274000000000000000000000000000000003b71657468676972656c676e61697274,
  0x3b73756e696d6972740000000000000000000000000000000000000000000000000000003b65697274,
  0x3b73756c70697274000000000000000000000000000000000000000000003b746f44656c70697254,
  0x3b656d697469727400000000000000000000000000000000000000000000000000003b6273697274,
  0x3b7263735400000000000000000000000000000000000000000000003b6d75697a65707274,
  0x3b796353540000000000000000000000000000000000000000000000000000003b72637374,
  0x3b79634853540000000000000000000000000000000000000000000000000000003b79637374,
  0x3b6b6f7274735400000000000000000000000000000000000000000000000000003b7963687374,
  0x3b7478697774000000000000000000000000000000000000000000000000003b6b6f72747374,
  0x3b776f7272617468676972646165686f77740000000000000000000000000000003b776f7272617466656c646165686f7774,
  0x657475636155000000000000000000000000000000000000000000000000003b657475636155,
  0x657475636175000000000000000000000000000000000000000000000000003b657475636175,
  0x3b727241750000000000000000000000000000000000000000000000000000003b72726155,
  0x3b7269636f727261550000000000000000000000000000000000000000000000000000003b72726175,
  0x3b796372627500000000000000000000000000000000000000000000000000003b7963726255,
  0x3b657665726275000000000000000000000000000000000000000000000000003b657665726255,
  0x637269635500000000000000000000000000000000000000000000000000003b6372696355,
  0x637269637500000000000000000000000000000000000000000000000000003b6372696375,
  0x3b796375000000000000000000000000000000000000000000000000000000003b796355,
  0x3b63616c62645500000000000000000000000000000000000000000000000000003b7272616475,
  0x3b7261686475000000000000000000000000000000000000000000000000003b63616c626475,
  0x3b726655000000000000000000000000000000000000000000000000003b746873696675,
  0x3b657661726755000000000000000000000000000000000000000000000000000000003b726675,
  0x3b6576617267750000000000000000000000000000000000000000000000000000657661726755,
  0x3b726148750000000000000000000000000000000000000000000000000000657661726775,
  0x3b727261687500000000000000000000000000000000000000000000000000003b6c72616875,
  0x3b6e726f636c7500000000000000000000000000000000000000000000000000003b6b6c626875,
  0x3b706f72636c7500000000000000000000000000000000000000000000003b72656e726f636c75,
  0x3b7263616d5500000000000000000000000000000000000000000000000000003b6972746c75,
  0x3b6c6d7500000000000000000000000000000000000000000000000000003b7263616d75,
  0x3b7261427265646e5500000000000000000000000000000000000000000000000000000000006c6d75,
  0x3b74656b636172427265646e550000000000000000000000000000000000000000003b65636172427265646e55,
  0x3b6e6f696e550000000000000000000000000000003b7369736568746e657261507265646e55,
  0x3b6e6f676f55000000000000000000000000000000000000000000003b73756c506e6f696e55,
  0x3b66706f5500000000000000000000000000000000000000000000000000003b6e6f676f75,
  0x3b776f72724170550000000000000000000000000000000000000000000000000000003b66706f75,
  0x3b776f72726170750000000000000000000000000000000000000000000000003b776f7272617055,
  0x3b776f7272416e776f44776f72724170550000000000000000000000000000000000000000003b726142776f7272417055,
  0x3b776f7272616e776f64705500000000000000000000000000000000000000003b776f7272416e776f447055,
  0x3b6d75697262696c69757145705500000000000000000000000000000000000000003b776f7272616e776f647075,
  0x3b74686769726e6f6f7072616870750000000000000000000000000000000000003b7466656c6e6f6f707261687075,
  0x3b776f7272417466654c726570705500000000000000000000000000000000000000000000000000003b73756c7075,
  0x3b69737055000000000000000000000000000000003b776f72724174686769527265707055,
  0x3b68697370750000000000000000000000000000000000000000000000000000003b69737075,
  0x3b6e6f6c697370750000000000000000000000000000000000000000000000003b6e6f6c69737055,
  0x3b776f727241656554705500000000000000000000000000000000000000000000000000003b6565547055,
  0x3b6e726f6372750000000000000000000000000000000000000000003b73776f72726170757075,
  0x3b706f7263727500000000000000000000000000000000000000000000003b72656e726f637275,
  0x3b676e69727500000000000000000000000000000000000000000000000000003b676e697255,
  0x3b7263735500000000000000000000000000000000000000000000000000003b6972747275,
  0x3b746f6474750000000000000000000000000000000000000000000000000000003b72637375,
  0x3b65646c697475000000000000000000000000000000000000000000000000003b65646c697455,
  0x3b66697274750000000000000000000000000000000000000000000000000000003b69727475,
  0x3b6c6d755500000000000000000000000000000000000000000000000000003b7272617575,
  0x3b6c6d7575000000000000000000000000000000000000000000000000000000006c6d7555,
  0x3b656c676e617775000000000000000000000000000000000000000000000000000000006c6d7575,
  0x3b6e6f6c69737065726176000000000000000000000000000000000000000000000000003b7472676e6176,
  0x3b676e6968746f6e72617600000000000000000000000000000000000000000000003b617070616b726176,
  0x3b6970726176000000000000000000000000000000000000000000000000003b696870726176,
  0x3b72724176000000000000000000000000000000000000000000003b6f74706f7270726176,
  0x3b6f68727261760000000000000000000000000000000000000000000000000000003b72726176,
  0x3b71656e74657362757372617600000000000000000000000000000000000000000000003b616d676973726176,
  0x3b71656e7465737075737261760000000000000000000000000000000000003b7171656e746573627573726176,
  0x3b61746568747261760000000000000000000000000000000000003b7171656e746573707573726176,
  0x3b7468676972656c676e61697274726176000000000000000000000000000000003b7466656c656c676e61697274726176,
  0x3b726142760000000000000000000000000000000000000000000000000000003b72616256,
  0x3b79635600000000000000000000000000000000000000000000000000003b7672614276,
  0x3b6873614456000000000000000000000000000000000000000000000000000000003b796376,
  0x3b687361447600000000000000000000000000000000000000000000000000003b6873616456,
  0x3b6c687361645600000000000000000000000000000000000000000000000000003b6873616476,
  0x3b656576000000000000000000000000000000000000000000000000000000003b656556,
  0x3b7165656576000000000000000000000000000000000000000000000000003b726162656576,
  0x3b726162726556000000000000000000000000000000000000000000000000003b70696c6c6576,
  0x3b74726556000000000000000000000000000000000000000000000000003b726162726576,
  0x3b7261426c616369747265560000000000000000000000000000000000000000000000000000003b74726576,
  0x3b726f746172617065536c61636974726556000000000000000000000000000000000000003b656e694c6c61636974726556,
  0x3b65636170536e696854797265560000000000000000000000000000000000003b65646c69546c61636974726556,
  0x3b726676000000000000000000000000000000000000000000000000000000003b726656,
  0x3b6275736e7600000000000000000000000000000000000000000000000000003b6972746c76,
  0x3b66706f5600000000000000000000000000000000000000000000000000003b7075736e76,
  0x3b706f7270760000000000000000000000000000000000000000000000000000003b66706f76,
  0x3b7263735600000000000000000000000000000000000000000000000000003b6972747276,
  0x3b456e627573760000000000000000000000000000000000000000000000000000003b72637376,
  0x3b456e70757376000000000000000000000000000000000000000000000000003b656e62757376,
  0x3b687361647656000000000000000000000000000000000000000000000000003b656e70757376,
  0x3b63726963570000000000000000000000000000000000000000000000003b67617a67697a76,
  0x3b72616264657700000000000000000000000000000000000000000000000000003b6372696377,
  0x3b656764657700000000000000000000000000000000000000000000000000003b6567646557,
  0x3b707265696577000000000000000000000000000000000000000000000000003b716567646577,
  0x3b726677000000000000000000000000000000000000000000000000000000003b726657,
  0x3b66706f770000000000000000000000000000000000000000000000000000003b66706f57,
  0x3b727700000000000000000000000000000000000000000000000000000000003b7077,
  0x3b72637357000000000000000000000000000000000000000000000000003b687461657277,
  0x3b706163780000000000000000000000000000000000000000000000000000003b72637377,
  0x3b7075637800000000000000000000000000000000000000000000000000003b6372696378,
  0x3b72665800000000000000000000000000000000000000000000000000003b6972746478,
  0x3b7272416878000000000000000000000000000000000000000000000000000000003b726678,
  0x3b695800000000000000000000000000000000000000000000000000003b7272616878,
  0x3b7272416c7800000000000000000000000000000000000000000000000000000000003b6978,
  0x3b70616d7800000000000000000000000000000000000000000000000000003b7272616c78,
  0x3b746f646f780000000000000000000000000000000000000000000000000000003b73696e78,
  0x3b66706f780000000000000000000000000000000000000000000000000000003b66706f58,
  0x3b656d69746f78000000000000000000000000000000000000000000000000003b73756c706f78,
  0x3b727261727800000000000000000000000000000000000000000000000000003b7272417278,
  0x3b726373780000000000000000000000000000000000000000000000000000003b72637358,
  0x3b73756c707578000000000000000000000000000000000000000000000000003b707563717378,
  0x3b6565767800000000000000000000000000000000000000000000000000003b6972747578,
  0x3b657475636159000000000000000000000000000000000000000000000000003b656764657778,
  0x3b6574756361790000000000000000000000000000000000000000000000000000657475636159,
  0x3b796341590000000000000000000000000000000000000000000000000000657475636179,
  0x3b63726963590000000000000000000000000000000000000000000000000000003b79636179,
  0x3b79635900000000000000000000000000000000000000000000000000003b6372696379,
  0x3b6e6579000000000000000000000000000000000000000000000000000000003b796379,
  0x3b72665900000000000000000000000000000000000000000000000000000000006e6579,
  0x3b79634959000000000000000000000000000000000000000000000000000000003b726679,
  0x3b66706f590000000000000000000000000000000000000000000000000000003b79636979,
  0x3b726373590000000000000000000000000000000000000000000000000000003b66706f79,
  0x3b796355590000000000000000000000000000000000000000000000000000003b72637379,
  0x3b6c6d75590000000000000000000000000000000000000000000000000000003b79637579,
  0x6c6d75790000000000000000000000000000000000000000000000000000003b6c6d7579,
  0x3b65747563617a000000000000000000000000000000000000000000000000003b65747563615a,
  0x3b6e6f7261637a000000000000000000000000000000000000000000000000003b6e6f7261635a,
  0x3b79637a000000000000000000000000000000000000000000000000000000003b79635a,
  0x3b746f647a0000000000000000000000000000000000000000000000000000003b746f645a,
  0x3b656361705368746469576f72655a000000000000000000000000000000000000000000000000003b66727465657a,
  0x3b6174657a0000000000000000000000000000000000000000000000000000003b6174655a,
  0x3b72667a000000000000000000000000000000000000000000000000000000003b72665a,
  0x3b7963687a0000000000000000000000000000000000000000000000000000003b7963485a,
  0x3b66706f5a0000000000000000000000000000000000000000000000003b7272617267697a,
  0x3b7263735a0000000000000000000000000000000000000000000000000000003b66706f7a,
  0x3b6a777a0000000000000000000000000000000000000000000000000000003b7263737a,
  0x3b6a6e777a]

/-- Names, 32 bytes each, first character lowest. -/
def nameTbl : Table := ⟨256, 2231, nameData⟩

def certData : Nat := pack 480 [
  0x50021b0001a000190001700016000150001300012000110000f0000e0000d0000b0000a000090000700006000050000300002000010000000000000,
  0x110040f0040e0040d0040b0040a004090041b0021a002190021700216002150021300212002110020f0020e0020d0020b0020a002090020700206002,
  0x170051600515005130050506012005110050f0050e0051c0041c0021c0000d0050b0050a005090051b0041a004190041700416004150041300412004,
  0xe010110090f0090e0090d0090b0090a00909009100080f0080d0100e0080d008100070f0070e0070d0070b0060a006090061c0051b0051a00519005,
  0x1000210000140000c0050c0040e00b0d00b1800510005180091700918004100040d00f16009180030c002180011400a0c00006060150091300912009,
  0xc0110d00d1800b1700b1600b1500b1400c1300b1200b1100b1000b0f00b10010100090b0110a011090110f0100b0130a01309013140051400414002,
  0x130111201111011100110f0110e0110d011090160c0061000f0f00f0e00f0c0091800d1700d1600d1500d1400e1300d1200d1100d1000d0f00d0e00d,
  0x150130c0160b0160a01614014130131201311013100130f0130e0130d0130c0150c0130b0150a015090151801117011160110c00f150110c00814012,
  0xd0180c0180b0180a01809018100170f0170e0170d017100160c00b0f0160e0160d01a0c01a0c0070b01a0a01a0901a0d0160901e180131701316013,
  0x901c1c0181b0181a018190180c017180191701816018150180e01e0d01e14018130180c01e0b01e0a01e120180c01011018100180f0180c00d0e018,
  0xf01c0b0210a021090211c01a1b01a1a01a1901a1801b1701a1601a1501a1401a1301a1201a1101a1001a0f01a0e01c0d01c0d01f0e01a0b01c0a01c,
  0x1201d1001c2001c1f01c1e01c1d01c1c01c1b01c1a01c1901c1801c000001701c1601c1501c1401c0f0211301c1201c1101c1101d0e0210d0210d025,
  0x1101f1001f0f01f0e01f0c01c1801e1701e1601e1501e1401e1301e1201e1101e1001e0f01e1001d09023000001801d1701d1601d1501d1401d1301d,
  0x100230f02311020100200f0200e0200e0230d0230d0200c0200c0240b0230a0230b0200a020090201801f0c01f1701f1601f1501f1401f1301f1201f,
  0x170211602115021110290f028000001402113021120210e0280d0280d02d110210b0280a028090281102218020170201602015020140201302012020,
  0x100270f0270e0270d0270c0270b0270a03f0a02709027100250f0250e0250c021100220903f180221702216022150221402213022120221002118021,
  0x1402a1302a1202a0f03f0e03f1102a1c0290d03f0d0410b03f1b0291a02900000190291802917029160291502914029100280c0261302912029,
  0x1902b1802b1702b1002a1602b000001002911040100400f0401502b1402b1302b1202b0e0400d0400d0421102b0b0400a040090401203f1103f1003f,
  0x1102e110390c02d0f02d0e02d0c0281402c1302c000001002c1202c1102c1002b2402b2302b2202b2102b2002b1f02b1e02b1d02b1c02b1b02b1a02b,
  0x1d0311c0301b0301a0301903018030170301603015030140301303012030110301802f1702f1602f1502f1402f1302f1202f1102f1402e1302e1202e,
  0x130392403523035220352103524033230331203923034220342103424032000002303222032220332103324031230312203121031210321f0311e031,
  0x20037200362003520034200332003220031000002403823038240361c031230362203621036000002203821038240372303722037210372403414039,
  0x1603c1503c1503d1303c1203c1103c2403b2303b2203b2103b2003a1f03a1e03a1d03a1c03a1b03a1a03a1903a1803917039160391002d1503920038,
  0x1c03e1b03e1a03e1002e1903e1803e1703e1603e1503e1403e1303e1203e1103e1403d1803d1703d1603d1403c1c03c1b03c1a03c1903c1803c1703c,
  0x120400b0430a043090431803f1703f1003e1803a0a0491603f1503f1403f1303f1003c1003900000090492003b2003e100301002f1f03e1e03e1d03e,
  0x1104910049100410f0410e0410c03f0f0490e04918040170400d0490c0490b0491204411044100440f044160401504014040130400e0440d0450d044,
  0xe04e0d04e0c04e130440b04e0a04e0904e0c0420e04514042130421204211042100420f0420e0420c0401404113041120410c041110411304912049,
  0xf0470e0470d047100460f0460e0460d046100450f0450d04a1c0441b0441a04419044180441304e1204e1104e1004e0f04e17044160441504414044,
  0xa04c1b0491a04919049180491704916049150490904c1404914048130481204811048100480f0480e0480d04814047130471204711047100470e04a,
  0x2c0492b0490d04c0c04c0b04c1204a2a049290492804927049260491104a2504924049230491004a2204921049200490f04a1f0491e0491d0491c049,
  0x1604a1504a1404a1304a0c04338049370493604935049340493304932049310491404d1304c1204c1104c1004c300492f0492e0492d0490f04c0e04c,
  0x1704e090501604e1504e1404f1804c1704c1604c1504c2404b2304b2204b2104b2004b1f04b1e04b1c04a1d04b0c0451b04a1a04a1904a1804a1704a,
  0xc048100510f0510e0510d0510d0530c0470b0510a051090510c0461405013050120500c04411050100500f0500e0500d0500d0520b0500a0501804e,
  0x1b0520c0521a05219052180520a0561705216052150521405213052120521105209056100520f0520e0520c050140511305112051110511c04b0c04a,
  0xc05418054170540f0560e0560c053160540d0560c0560b0561505414054130541205411054100540f0540e0540d054100530f0530e0530c0511c052,
  0x1205811058100580f0581f0551e0551d0551c0550e0580d0580c0581b0550b0580a0580905816056150561a055140561305612056110561005619055,
  0xe05a0d05a0c05a0b05a1c0581b0581a058180551905818059170580a05a160581c0561b0561a0561905618057170560905a15058140582005513058,
  0xe05e0d05e0d05f0b05e0a05e0905e1405c1305c1205c1105c1005d0f05c0e05c0d05c0c05c0b05c0a05c0905c1405a1305a1205a1105a1005b0f05a,
  0x8058080510804e08023080430804008028080210801c1605e1505e080111405e0801a08015080131305e0800608005080021205e1105e1005e0f05e,
  0xf05f08018080160e05f0c05e0800908004080002405e2305e2205e2105e2005e1f05e1e05e1d05e1c05e1b05e1a05e1905e1805e0805e1705e0805c,
  0xa060090600906b07060050651805f1705f1605f1505f1405f1305f0805a08056080500804c1205f080490803f08027080200801e1105f0c05f1005f,
  0x2206021060200601f0601e0601d0601c0601b0601a060190601806017060160601506015061130601206011060100600f0600e0600d0600d0670b060,
  0x2506124061230612206121061200611f0611e0611d0611c0611b061000001a0611906118061160620000015062170610706506065160612406023060,
  0x21062200621f0621e0621d0621c0621b0621a0621906218062160631706215063300612f0612e0612d0612c0612b0612a06129061280612706126061,
  0x2406423064140622206421064200631f0631e0631d0631c0631b0631a063190631406118063140602806227062260622506224062230622206217063,
  0x1806517065160651506514065130651206511065100650f0650e0650d0650d0660b0650a065090650906e060e0050e02806427064260642506414063,
  0x110680f0660e0660c06528065270652606525065090ef070e02006424065230652206521065200651f0651e0651d0651c0651b0651a06519065,
  0x1c0671b0671a067190670c06700000180671706716067150671406713067120670c0661106711069000000f0670e0670c06014066130661206611066,
  0x190691806917069160691506914069130691206910069100671c0681b0681a0681906818068170681606800000150681406813068120681006810066,
  0x1406b1306b1206b1106b1006b0f06b0e06b0d06b0c06b0b06b0a06b0a06d0906d2406a2306a2206a2106a2006a1f06a1e06a1d06a1c0691b0691a069,
  0xe06d1c06a0d06d0d06f0b06d0b0700a070090702406c2306c2206c2106c2006c1f06c1e06c1d06c1c06c1b06c1a06c1906c1806c1706c1606c1506c,
  0x90711006f0f06f0e06f0c06d1006e0f06e0e06e0d06e0c06e0b06e0a0720a06e090721806d1706d1606d1506d1406d1306d1206d1106d1006d0f06d,
  0xd0710d07d0c07d0b07d0a07d0907d1807017070160701507014070130701207011070100701406c0f0700e0700c06f0d0700c0700d0740b0710a071,
  0x100720f0720e0720d0720b07c0d0770a07c0b0720907c1c0711b0711a071190711807117071160711507114071130711207111071100710f0710e071,
  0x100740f0740e0740d075200731f0731e0731d073200721f0721e0721d0721c0721b0721a072190721807217072160721507214072130721207211072,
  0x130751207511075100750f0750d079200741f0741e0741d0741c0741b0741a07419074180741c073170740e075160741507414074130741207411074,
  0x1c0761b0761a076190761807617076160761507614076130761207611076100760f0761107a0e0760f0790d076180750e07917075160751507514075,
  0x230772207721077200771f0771e0771d0771c0770e0781b0771a077190771807717077160771507714077130771207711077100770f0770e0770d078,
  0x1307a1207a100791407913079120790c0711107914078130781207811078100780f0780c0722c0772b0772a077290772807727077260772507724077,
  0x1f07b1e07b1d07b1c07b1007b1b07b1a07b1907b1807b1707b1607b1507b1407b0c0791307b0c0761207b0c0751107b1007a0c0740c0781407a0c077,
  0xd08b0c08b0b08b0a08b0908b1007d0f07d0e07d0e07e0d07e0c07e0b07e0a07e0907e1007c0f07c0e07c0c09b0b09b0d07c0a09b0c07c0909b2007b,
  0x1c07f1b07f1a07f1907f1807f1707f1607f1407e1c07e1b07e1a07e1907e1807e1707e1607e1507e1507f1307e1207e1107e0f08b110810f07e0e08b,
  0x1a0811908118081170811608115081150821308112081110841c080140801b0801a08019080180801708016080150802007f1f07f1e07f1d07f1407f,
  0x2408223082220822108216083200821f0821e0821d0821c0821b0821a0821908218082170821608215083200811f0811e0811d081120841c0811b081,
  0x15085130841108628083270832608325083140832408323083220831408221083200831f0831e0831d0831c0831b0831a08319083180831708314081,
  0x1908518085140851708516085140842408423084220842108413086200841f0841e084120861d0841c0841b0841a0841908418084170841608415084,
  0x1308821086200861f086120881e0861d0861c0861b0861a08619086180861708616086150861408611088200851f0851e0851d0851c0851b0851a085,
  0x3808637086360863508634086330863208631086300862f0862e0862d0862c0862b0862a086290862808627086260862508624086230862208614088,
  0x1a088190881808817088160881508811089380873708736087350873408733087320873108730087400863f0863e0863d0863c0863b0863a08639086,
  0x1208a1108a1c0891b0891a089190891808917089160891007e2408823088150891408913089220882108820088120891f0881e0881d0881c0881b088,
  0x2408a2308a2208a2108a2008a1f08a1e08a1d08a1c08a1b08a1a08a1908a1808a1008a100891008810086100841708a1608a1508a100811408a1308a,
  0xb0970a097090971c08b1b08b1a08b1908b1808b1708b1608b1508b1408b1308b110921208b0f08c1108b1008b0e08c0d08c0d0930b08c0a08c0908c,
  0x2208c2108c2008c1f08c1e08c1d08c1c08c1b08c1a08c1908c1908d1708c1608c1508c1408c12098110981308c0f0971208c1108c0e0970d0970d09a,
  0x1e08d1d08d1c08d1b08d1a08d1908e3408c3308c3208c3108c3008c2f08c2e08c2d08c2c08c2b08c2a08c2908c2808c2708c2608c2508c2408c2308c,
  0x1e08e1d08e1c08e1b08e1808c3008d2f08d2e08d2d08d2c08d2b08d2a08d2908d2808d2708d2608d2508d2408d2308d2208d2108d2008d1a08e1f08d,
  0x3408e3308e3208e3108e3008e2f08e2e08e2d08e2c08e2b08e2a08e2908e2808e2708e2608e2508e2408e2308e2208e2108e1808e1808d2008e1f08e,
  0x3c0903b0903a090390904808f4708f4608f4508f4408f4308f4208f4108f4008f3f08f3e08f3d08f3c08f3b08f3a08f3908f3808e3708e3608e3508e,
  0x4309142091410913808f400913f0913e0913d0913c0913b0913a091390914809047090460904509044090430904209041090400903f0903e0903d090,
  0x11095100920f0930e0930d096180921709216092150921409213092120921008c380914c0914b0914a09149091480913809047091460914509144091,
  0xc08c18095170951609515095140951309510095120951009318094170941409416094140931809317093160930e0961509315094130931209311093,
  0x160980f09915098140980e0990d0990c0990b0990a099090990c0961309810097180960c09317096160961509614096130961209611096100960f096,
  0x1409a1309a1209a1109a1009a0f09a0e09a0c09714099130990909c200981f0981e0981d0981c0981b0981a098190981809812099170981109910099,
  0x1309b1209b1309c1109b1209c1109c100981009c0d0cd1009b0f09c0e09c0d09c0d09d0b09c0a09c0f09b0c0cd0b0cd0e09b0a0cd0c09a090cd0d09b,
  0xd0cc0c0cc0b0cc0a0cc1c09e1b09e1a09e1909e1809e1709e1609e1509e1409e1309e1209e1109e0e09f1009d0f09d0e09d0d09f1409c090cc1409b,
  0x1c09f1b09f1a09f1909f1809f1709f1609f1509f0f0a01409f1309f0e0a01209f140cc130cc0d0a0120cc110cc1109f100cc1009f0f09f0f0cc0e0cc,
  0x160a1150a1150a5130a1120a1110a91c0a01b0a01009e1a0a0190a0180a0170a0160a0150a00c0a00c09f140a0130a00c09d120a0110a0110a10c09c,
  0x160a6150a6180a5170a5140a1160a5180a4170a4160a4150a4180a3170a3160a3150a3150a7130a3120a3110a3180a2170a2160a2150a2180a1170a1,
  0x170ab160ab150ab150ad130aa120b3120aa110aa150af110b3180a8170a8140a7160a8150a8180a7170a7160a7140a3180a6170a6130a9140a5120a9,
  0x180af140b3170af130b3140a8140a9180ae140ad170ae160ae140a4150ae180ad170ad140a6160ad140aa180ac170ac160ac140a2150ac180ab160af,
  0x1b0b31a0b3190b3140af120b6180b3170b3160b3110b6180b2170b2160b2150b2180b1140b1170b1160b1150b1180b0170b0140ab150b3160b0150b0,
  0x150b71a0b4130b6190b4180b4170b4140b2160b4150b4140b4130b4120b4140ac110b4240b3230b3220b3210b3200b31f0b31e0b31d0b31c0b3140ae,
  0x1d0b51c0b51b0b51a0b5190b5180b5170b5160b5180b6150b5140b5130b5170b6120b5110b5160b6200b41f0b41e0b4140b0150b61d0b41c0b41b0b4,
  0x170b9160b9150bc180b8170b8160b8150b8150b9130b8120b8110b8180b7120be170b7160b7150ba110be240b5230b5220b5210b5200b51f0b51e0b5,
  0x130bf180bd170bd160bd120bf150bd140bc180bc110bf170bc150c4160bc140b8180bb170bb140ba160bb150bb180ba170ba160ba140b6180b9130be,
  0x100be100b6160c3150c3140b9180c2170c2140bb160c2150c2160c6180c1170c1140b7100a9160c1150c1180c0100a1170c0160c0160c4150c0150c6,
  0x160ca100b3180c7140c4170c7160c7100aa140c0150c7180c6100a3170c6100a0150ca180c5170c5160c5150c5180c4170c4140be180c3140bd170c3,
  0x170cc160cc090ce150cc180cb170cb160cb140bf150cb180ca180c9170c9160c9150c9180c8170c8100bf100b8100b5160c8170ca140c8100b4150c8,
  0x140cd130cd0f0ce0e0ce0d0ce0d0cf0b0ce0a0ce140ca120cd110cd100cd0f0cd140c9140c60e0cd1c0cc1b0cc140c2140c51a0cc190cc180cc140c1,
  0x140cb0f0cf0e0cf0c0ce180ce170ce140c7160ce0c0d10b0d1140c30a0d1090d2090d1180cd170cd150ce140ce130ce160cd120ce110ce150cd100ce,
  0xe0d4170cf0d0d4140d2130d2160cf120d2110d2150cf100d20c0cf140cf0f0d20e0d20d0d20d0d30b0d20a0d2130cf120cf0e0d1110cf100cf0d0d1,
  0xf0de0e0de120d3110d30d0de100d30f0d30e0d3090d9140d1130d1120d1110d10c0de0b0de100d10a0de0f0d1090de1c0cf1b0cf1a0cf190cf180d0,
  0x130d9160d5120d9110d9150d5100d9140d4130d40f0d90e0d90d0d90d0db0b0d90a0d9120d4110d4100d40f0d4180d3170d3160d3150d3140d3130d3,
  0x160d8150d8180d7170d7160d7150d70c0d6140d6130d6120d6110d6100d60c0d40f0d60e0d60d0d60c0d3180d50c0d2170da160da170d5150da140d9,
  0xc0db0c0d91c0da1b0da08099140da1a0da190da180da240d8230d8220d8140d5210d8200d81f0d81e0d81d0d81c0d81b0d81a0d8190d8180d8170d8,
  0x170dd0807e160dd140dc0807d08071080700806d0806b08060140d8150dd180dc140db170dc160dc140d7150dc130db120db110db100db0f0db0e0db,
  0x809b190de180de170de160de150de140de130de120de0807c08072110de0806e080d908065080d2080ce100de080cc0809c08097180dd0808c0808b,
  0x120e0110e0100e00f0e00e0e00d0e00d0e20b0e00a0e0090e00716706167051671c0df1b0df1a0df190df1c0de080de140dd080d1080cd1b0de1a0de,
  0xe0e10d0e10a16709167091720d0e30b0e10a0e1090e1090ee070e1060e1050e11c0e01b0e0180df1a0e0190e0180e0170e0160e0150e0140e0130e0,
  0x120e4110e4110e80f0e30e0e30d0eb110e90f0e20e0e20d0ed1c0e11b0e11a0e1190e1180e1170e1160e1150e1140e1130e1120e1110e1100e10f0e1,
  0x1c0e51b0e51a0e5190e5180e5170e5160e5150e5140e5130e5120e5110e51c0e41b0e41a0e4190e40e0eb180e4170e4160e40e0ed150e4140e4130e4,
  0x1c0e61b0e61a0e6190e6180e6170e600000160e6150e6140e6140e8130e8120e8130e6120e6110e6240e5230e5220e5210e5200e51f0e51e0e51d0e5,
  0x160e9150e9140e9130e9120e9100e21c0e81b0e81a0e8190e8180e8170e8160e8140e7150e8110ea1c0e71b0e71a0e7190e7180e7170e7160e7150e7,
  0x130ea120ea2c0e92b0e92a0e9290e9280e9270e9260e9250e9240e9230e9220e9210e9200e91f0e91e0e91d0e91c0e91b0e91a0e9190e9180e9170e9,
  0x410e9400e93f0e93e0e93d0e93c0e93b0e9100e93a0e9390e9380e9370e9360e9350e9340e9330e9320e9310e9300e92f0e92e0e92d0e90f0eb140ea,
  0x120eb110eb100eb0c0e1100e3540e9530e9520e9510e9500e94f0e94e0e94d0e94c0e94b0e94a0e9490e9480e9470e9460e9450e9440e9430e9420e9,
  0x140ed130ed120ed110ed100ed0f0ed0c0e0180ec170ec160ec150ec140ec0c0eb130ec0c0e3120ec100ec110ec180eb170eb160eb150eb140eb130eb,
  0xd0ee0d0f30b0ee0a0fb0a0ee090fb200ed1f0ed0c0ed1e0ed1d0ed100e8100e6100e5100e41c0ed1b0ed0c0e21a0ed190ed180ed170ed160ed150ed,
  0x130ef120ef110ef100ef0f0ef0e0ef0d0ef0d0f10b0ef0a0fa0a0ef090fa180ee170ee160ee150ee140ee130ee120ee110ee100ea110f00f0ee0e0ee,
  0xe0f10d0f51c0f01b0f01a0f0190f0180f0170f0160f0150f0140f0130f0100f0120f0100ee1c0ef1b0ef1a0ef190ef180ef170ef160ef150ef140ef,
  0x140f3130f3120f3110f30e0f6100f30f0f30e0f30d0f61c0f11b0f11a0f1190f1180f2170f1160f1150f1140f1130f1120f1110f10e0f5100f10f0f1,
  0x100f60f0f60d0f8180f5170f5160f5150f50f0f7140f5130f5120f50e0f7110f5100f50f0f50d0f71c0f31b0f31a0f3190f3180f4170f3160f3150f3,
  0x1a0f7190f7180f7170f7160f70c0f5150f7140f7130f70c0f1120f7110f7100f70c0ef180f6170f6160f6150f60f0f8140f6130f6120f60e0f8110f6,
  0x1d0f91c0f91b0f91a0f9190f9180f8170f8160f80c0f6150f8140f8130f80c0f3120f8110f8100f80c0ee200f71f0f71e0f71d0f71c0f71b0f70c0f7,
  0xe0fb0d0fb0c0fb0b0fc0a0fc0b0fb090fc140fa130fa120fa110fa100fa0f0fa0e0fa0d0fa0c0fa0b0fe0a0fe0b0fa090fe0c0f8200f91f0f91e0f9,
  0xd102180fc170fc160fc150fc140fd130fc120fc110fc100fc0f0fc0e0fc0d0fc0c1050b1050a1050d0ff09105140fb130fb120fb110fb100fb0f0fb,
  0x1f0fe1e0fe1d0fe1c0fe1b0fe1a0fe190fe180fe170fe160fe150fe140fe130fe120fe110fe100fe0f0fe0e0fe0c1040b1040a104180f9091040d0fe,
  0xf1000c0fc200ff1f0ff1e0ff1d0ff1c0ff1b0ff1a0ff190ff180ff170ff160ff0e100150ff140ff130ff120ff110ff100ff0f0ff0e0ff0d100200fe,
  0x1c1021b1021a10219102181021710216102151020c10214102131021210211102101020f1020c1000c0ff0e1020c0fe1410013100121001110010101,
  0x1f103141031e1031d1031c1031b1031a10319103181031710316103151032810227102261022510224102231022210221102201021f1021e1021d102,
  0xd1070d1080b1070a1070d10509107101040f1040e1040d1060c1060b1060a1060d10409106281032710326103251032410323103221032110320103,
  0x121071110710107000000e10c0f1070d10c0c10c0b10c0a10c0e1070910c14106131061210611106101060f1060e1060910a00000101050f1050e105,
  0x1c1091b1091a109191091810817108161081510814108131081210811108101080e10a0d10a0c10a0b10a0f1080a10a0e10b0e1080d10b1410713107,
  0xb1220a1220c10b091220f10c1010b0c1080f10b0c1071010a0f10a091142810927109261092510924109231092210921109201091f1091e1091d109,
  0x1c10e1b10e181090f1141a10e0e1140d1140c1140b1141910e0a1141810e1710e1610e1510e1410d1310d1210d1110d0f1220e1221111a0d1220c122,
  0x2b10f2a10f2910f2810f2710f1211a2610f2510f2410f2310f2210f2110f2010f1f10f1e10f1d10f1d1111b10f1a10f1910f1810f1710f1610f1510f,
  0x4010f3f10f3e10f3d10f3c10f3b10f3a10f3910f3810f3710f3610f3510f000003410f1410f3310f3210f3110f311102f10f2e10f1410e2d10f2c10f,
  0x1f1111e1111c10f44110431104211041110401103f1103e1103d1103c1103b1103a1103911038110371103011036110351103411033110321103010f,
  0x281122711226112251122411223112000002211322112211132c1112b1112a111291112811127111261112511124111231112211121111211121c111,
  0x2f1132e1132d1132c1132b1132a11329113281132711326113251132411323115221152311321115301122f1122e1122d1122c1122b1122a11229112,
  0x2511424114231142211421114201141f1141e1141d1141d1171b1141a114191141811417114161141511414114131141211411114101140911f30113,
  0x231172211721117201171f1171e1171d118241162311622116201162011524115111200f11f211160e11f0d11f0c11f0b11f281140a11f2711426114,
  0x24118231182211821118201181f1181d119301172f1172e1172d1172c1172b1172a117291172811727117201132011226117201111e1182511724117,
  0x2a1191c11829119281191c11727119261192511924119231192211921119201191c1142c1182b1182a118291181f11928118271181e1192611825118,
  0x1911c1811c1711c1611c1511c1411c1011a1311c1211c1111c1411b1311b1211b1111b1411a1311a1010c301192f1192e1192d1191c1192c1192b119,
  0x1010d1c11d1b11d1a11d1911d1811d1711d1611d1511d1411d1311d1211d1111d2411c2311c2211c2111c2011c1f11c1e11c1d11c1c11c1b11c1a11c,
  0x1311f1211f1111f091242011e1f11e1e11e1d11e1011e1c11e1b11e1a11e1911e1811e1011d1711e1611e1511e1411e1311e1211e1011c1011b1111e,
  0xb1242911f0a1242811f2711f2611f2511f2411f2311f2211f2111f2011f1f11f1e11f1d11f1c11f1b11f1a11f1911f1811f1711f1611f1511f1411f,
  0x3b11f3a11f3911f3811f3711f3611f3511f3411f3311f3211f3111f3011f2f11f2e11f2d11f111242c11f2b11f101240f1242a11f0e1240d1240d131,
  0x5311f5211f5111f5011f4f11f4e11f4d11f4c11f4b11f4a11f4911f4811f4711f4611f4511f4411f4311f4211f4111f4011f3f11f3e11f3d11f3c11f,
  0x1712016120151201412013120121201011f6411f6311f6211f6111f6011f5f11f5e11f5d11f5c11f5b11f5a11f5911f5811f5711f5611f5511f5411f,
  0x2e1202d1202d1212b1202a12029120281202712026120251202412023120221202112010120201201f1201e1201d1201c1201b1201a1201912018120,
  0x461204512044120431204212041120401203f1203e1203d1203c1203b1203a120391203812037120361203512034120331203212031120301202f120,
  0x3212131121301212f1212e1212c1205812057120561205512054120531205212051120501204f1204e1204d1204c1204b1204a120491204812047120,
  0xf1250e125111220d1250d1290b1250a1251012209125401213f1213e1213d1213c1213b1213a1212c12139121381213712136121351213412133121,
  0x1412413124121240913924123231232212321123201231f1231e1231d1231c1231b1231a123191231812217122161221512214122101251312212122,
  0xb139191260a13918125171251113f16125151251013f14125131250f13f0e13f121250d13f0d1410b13f0a13f111250913f18124171241612415124,
  0xf1290e129181260e12f0d12f20128181231f1281e1281d1281c1271b127121391a127191271513d1c1261b1261013a0f1391a1260e1390d1390c139,
  0x1912c1812c1712c1612c1512c1412b1312b1012b1212b18127101291c12a1b12a1a12a1912a18129171291612915129141291312912129111291112b,
  0x2812d2712d2612d2512d1c1282412d2312d2212d2112d2012d1f12d1e12d1d12d1d12e1b12d1a12d1912d1812d1712d1612d1512d1c12c1b12c1a12c,
  0xf12f0f1360e1360d1361412d2812e1812a2712e1c12e2612e1412c2512e2412e2312e2212e2112e2012e1f12e1e12e1c12d2c12d2b12d2a12d2912d,
  0x1213111131111320f1310e1350e1310d135201301f1301e1301d1301c1301b1301a13019130181301713016130151301412f1312f1212f1112f11133,
  0x11134281311413027131261312513124131231312213121131201311f1311e1311d1311c1311b1311a13119131181311713116131151311413113131,
  0x1b1331a1331913318133171331613315133141331313310133121331012f1c1321b1321a132191321813217132161321513214132131321213412132,
  0x261342513424134231342213421134201341f1341e134101341d1341c1341b1341a1341913418134171341613415134141341013213134101311c133,
  0x3e1343d1343c1343b1343a134391343813437134361343513434134331343213431134301342f1342e1342d1342c1342b1342a134291342813427134,
  0x14137131371213711137141361313612136111360c1361213b0c12f0c1290c125141351313512135111350f13e111380e13e0f1350d13e401343f134,
  0x1e1381d138101381c1381b1381a1381913818138171381613815138141381313812138101351c1371b1371a1371913718137171371313b1613715137,
  0x1b13d1a13d1913d1813d1713d1613d0a1401113b1413b10136111391413913139091402813827138261382513824138231382213821138201381f138,
  0x1813e121401713e1613e11140101401513e0f1400e1400d1400c1401413e0b1400c13e1013c1313e1213e1113e0c1351013e0c131101370c1241c13d,
  0x1413d2e13e2d13e2c13e2b13e2a13e2913e2813e2713e2613e2513e2413e2313e2213e2113e2013e1f13e1e13e1d13e1c13e1b13e1a13e131401913e,
  0x4613e4513e4413e4313e4213e4113e4013e3f13e3e13e3d13e3c13e3b13e3a13e3913e3813e3713e3613e3513e3413e3313e3213e3113e3013e2f13e,
  0x5e13e5d13e5c13e5b13e5a13e5913e5813e5713e5613e5513e5413e5313e5213e5113e5013e4f13e4e13e4d13e4c13e4b13e4a13e4913e4813e4713e,
  0x7613e7513e7413e7313e7213e7113e7013e6f13e6e13e6d13e6c13e6b13e6a13e6913e6813e6713e6613e6513e6413e6313e6213e6113e6013e5f13e,
  0x1713f1613f101431513f1413f0f1430e1431313f0d1430d1440b1430a1431213f091438013e7f13e7e13e7d13e7c13e7b13e7a13e7913e7813e7713e,
  0xa142091421814117141161411514114141131411214111141101410f1410e1410c13f0a14f1814017140161401514014140121430914f1813f11143,
  0x1314309148121511115114142131420f15012142111420e150101420f1420d150111520e1420f14f0e14f0d14f0c14f0d1420b14f0c1420b1420c141,
  0x101441814517145161451514514144131441314812148121441114411148111460f144101480e1440c1430f1480e148141430d1480c1480b1480a148,
  0x1214911149101490f1490e1490d1490d14b0b1490a149091491014618148171481614815148141481814717147161471514714146131460c14412146,
  0xf1640e164141470d1640d1650b1640a1641f149091641e1491d149141451d14a1b1491a149000001914918149000001714916149151491414913149,
  0x1714b1614b1514b1414b1314b1214b1114b1114c0f14b0e14b0e14d0d14d151641416413164121641c14a2014a111641f14a1e14a101641c14920149,
  0x1914d1814d1714d1614d1514d141511414d1314d1214d1114d1014d0f14d13151111531814c1714c1614c1514c1414c1014c1314c1214c1014b1814b,
  0x1f1511e1511d1511115a1c1511b1511a1510f1581915108139181511715116151151510e1580d158081062014e1f14e1e14e1d14e1c14d1b14d1a14d,
  0x181520812417152161520811f1515214152081140810a1015208104080fe080fa080ef13152080e0121521014f241512315122151211511215320151,
  0x19154181541715416154151541c1531b1531a15319153181531715316153151531415313153101501c14e1c1521b1520814f1a152081420814019152,
  0x10151171561615615156141561315612156111561c1551b1551a155191551815517155161551515514155141541315512155111551c1541b1541a154,
  0x1a158191581116218158101621715816158101570f1621515814158101561315812158111580e1620d16214157131571215711157181561015510153,
  0x2115a2115b1f15a1e15a1d15a1c15a1215e1b15a1a15a1915a1915c1715a1615a1515a1415a1315a1215a1115e201591f1591e1591d1591c1581b158,
  0x2815b2715b2615b2515b2415b2015b2315b2215b2015a3015a2f15a2e15a2d15a2c15a2b15a2a15a2915a2815a2715a2615a2515a2415a2315a2215a,
  0x1b15d1a15d1915d2415c2315c2215c2115c2015c1f15c1e15c1d15c1c15c1b15c1a15c1815a3015b2f15b2e15b2d15b2c15b1c1592b15b2a15b2915b,
  0x1615e1515e1415e1315e101582c15d2b15d2a15d2915d2815d2715d2615d2515d2415d2315d2215d2115d2015d1f15d1e15d1815d1815c1d15d1c15d,
  0x1f1601e1601d1601c1601b1601a16019160101601816017160161601015e15160141601316012160111601015a1c15e1b15e1a15e1915e1815f1715e,
  0x37160361603516034160331603216031160301602f1602e1602d1602d1612b1602a16029160281602716026160251602416023160221602116020160,
  0x3e1613d1613c1613b1613a161391613816137161361613516134161331612c1613216131161301612f1612e1612c1603c1603b1603a1603916038160,
  0x14163131630c1630c1621216311163101630c1580f1630c1500e1630d163181620c14d1716216162151621416213162121620c14b0c149401613f161,
  0x1416613166121661d1641c164111661b1641a1641016619164181640f1660e166171640d1660c1660b1660a166161640916618163171631616315163,
  0x17166080e11816517165161651516514165131650c1651216511165101650f1650e1650c16424164231642216421164201641f164161661e16415166,
  0x51df081660e167081640d1670814908148081430813f0d16a0b167081251c1661b166081221a166191660810c081071816608105080fc080fb080ee,
  0xb1680a168091680916b0716806168051681c1671b1671a167191671816717167161671516714167131671216711167101670f167091e4071df061df,
  0xf1690e1690d16c1c1681b1681a168191681816817168161681516814168131680c1df0b1df0a1df091df1216811168101680f1680e1680d1680d169,
  0xa16b091701416a1316a1216a1116a1016a0f16a0e16a0d16e1c1691b1691a16919169181691716916169151691416913169121690e16c1116910169,
  0xc16d0c16c0e16d0d16d1416c000001316c0c1691216c1116c1016c0f16c0c1681416b1316b1216b1116b1016b0f16b0e16b0d16b0c16b0e16e0b16b,
  0x1816f1716f1616f1516f0c16e0c16a1816e1716e1616e1516e1416e1316e1216e1116e1016e0f16e0c1670a1701416d1316d1216d1116d1016d0f16d,
  0xc170201701f1701e1701d1701c1701b1701a170191701817017170161701517014170131701217011170101700f1700e1700d1700d1710b17009173,
  0x101720f1720e1720d1720d1740b1720a1761416f091760a172181711717116171151710b1730a17314171131711217111171101710f1710e1710c171,
  0x161731517314173131731217311173101730f1730e1730d1730c1730917c1c1721b1721a172191721817217172161721517214172131721217211172,
  0xd17c0d1800b17c0a17c0a177091770c1760b1760917e101750c1750f1750e1750d175101740f1740e1740c1721c1731b1731a173191731817317173,
  0x1f1780b17e1e1780a17e1d1781c1781b1781a1781917818178171781617815178141781317812178111780c174111790f1780e1780d1780d17b0b177,
  0x1817a1717a0c17a1617a1517a1417a1317a1217a0e17b1117a1017a101790f17a0e17a0d17a181791717916179151791417913179121791017820178,
  0x1917b1817b1717b1617b1517b1417b1317b1217b1117b1017b0f17b0c1772417a2317a2217a2117a2017a1f17a1e17a1d17a1c17a1b17a1a17a1917a,
  0x1717f1617f1517f1417f1317f1217f091831117f1017e0f17e0e17e0d17e0c17e1017c091820f17c0e17c2017b1f17b1e17b1d17b1c17b1b17b1a17b,
  0xc17d0a1830e1820d1820d1840b1820a1820c17b0f18118180171801618015180141801318012180111800e181101800f1800e1800c1780d1811817f,
  0x101820f18209185201811f1811e1811d1811c1811b1811a18119181181811718116181151811418113181121810c1810c180111810c183101810b183,
  0xb1850a185101840f1840e1840c182101830f1830e1830d183091881c1821b1821a1821918218182171821618215182141821318212182111821017f,
  0xd1880d193101860b1880f1860a1880e1860d1860c1860b1860a186091860a18d14185131851218511185101850f1850918d0c1840e1850d1850c185,
  0x1118e0f1880e1880919b1118d181871018d0f18d0e18d0d18d0d1920b18d171871618714187151871818617186161861518614186131861218611186,
  0x2818827188261882518824188231882218821188201881f1881e1881d1881c1881b1881a188191881818817188161881518814188131881218811188,
  0x3a18839188381883718836188351883418833188000003218831188311892f1882e1880e19b2d1882c1880d19b0c19b2b1880b19b2a1880a19b29188,
  0x381893c1893b1893a189391893918a371893618935189341893218b33189321893118b44188431884218841188401883f1883e1883d1883c1883b188,
  0x5018a4f18a4e18a4d18a4c18a4b18a4a18a4918a4818a4718a4618a4518a4418a4318a4218a4118a4018a3f18a3e18a3d18a3c18a3b18a3a18a3818a,
  0x3b18b3a18b3918b3818b3718b3318c3618b3518b3218c3418b3318b3118c5c18a5b18a5a18a5918a5818a5718a5618a5518a5418a5318a5218a5118a,
  0x3f18c3e18c3d18c3c18c3b18c3a18c3918c3818c3018b3718c3618c301893518c3418c301884418b4318b4218b4118b4018b3f18b3e18b3d18b3c18b,
  0x1c18e1b18e1a18e1018e1918e1818e1718e1618e1518e1418e0a19c1318e1218e101881418d1318d1218d0919c4418c3018c4318c4218c4118c4018c,
  0x2018f1219c1119c1f18f1019c0f19c0e19c0d19c0c19c0b19c1e18f1d18f1c18f1b18f1a18f1918f1818f1718f1618f1518f2018e1f18e1e18e1d18e,
  0xe1920d1941819117191161911519114191301902f1902e1901418f2d1902c1902b1902a190291902819027190261902519024190231902219021190,
  0x201931f1931e1931d1931c1931b1931a19319193181931719316193151931419313193121930c19311193101930f1930e1930c1880e194101920f192,
  0x37193361933519334193331933219331193301932f1932e1932d1932c1932b1932a19329193281932019027193261932519324193231932219321193,
  0x101950c18d201941f1941e1941d1941c1941b1941a194191941819417194161941519414194131940f195121940e19511194101940f1940d19538193,
  0x181981719716197151970c19614197131970c1951219711197101960f1960e1960d19618195171951619515195141950c194131950c1921219511195,
  0x301992f1992e1992d1992c1992b1992a199291992819927199261992519924199231992219921199201991f1991e1991d1991c1971b1971a19719197,
  0xf19b091a01c19a1b19a1a19a1919a1019a1819a1719a1619a1519a1419a101971319a1219a1119a3819937199361993519934199331993219931199,
  0x1519d1419d1319d1219d1119d1119e0f19d0e19d0d19d0c19d0a19f0b19d0a19d0919d1419c1319c1c1990919f1419b0a1a01319b1219b1119b1019b,
  0x1319f1219f1119f1419e1019f0f19f0e19f0d19f0d1a10b19f1319e1219e0f1a01c19d1b19d0e1a00d1a01a19d0d1a21919d0b1a01819d1719d1619d,
  0x121a0111a0101a01c19f1b19f0a1cc1a19f1919f1819f1719f1619f1519f091cc1c19e1b19e1a19e1919e1819e1719e1619e1019e1519e1419f1019d,
  0xf1cc0e1cc0d1cc0d1cd0b1cc0f1a30e1ac111a40f1a20e1a20d1ac141a1131a1121a10a1cf111a1101a10e1a30f1a10e1a1091cf0d1a3141a0131a0,
  0x171a4101cf161a4151a4141a4131a4121a40f1cf0f1ab121a70e1cf0d1cf0e1ab0d1d4151cc0b1cf0d1ab141cc111a7131cc121cc111cc111a8101cc,
  0x221a6211a6201a61f1a6121a81e1a61d1a61c1a61b1a61a1a6191a6181a5171a5161a5151a5141a5131a5121a5111a51c1a41b1a41a1a4191a4181a4,
  0x101a3241a7231a7221a7211a7201a71f1a71e1a71d1a71c1a71b1a7101a7101a41a1a7191a7181a7171a7161a7151a7141a7131a7101a2241a6231a6,
  0x151a9141a9131a9121a9111a9241a8231a8221a8211a8201a81f1a81e1a81d1a81c1a81b1a81a1a8191a8181a8181a6171a8161a8151a8141a8131a8,
  0x1b1aa1a1aa191aa181aa171aa161aa101a500000151aa141aa131aa121aa111aa201a91f1a91e1a91d1a91c1a91b1a91a1a9191a9181a9171a9161a9,
  0x151ab141ab131ab0e1bc121ab111ab101ab0d1bc281aa271aa261aa251aa241aa231aa221aa211aa101aa201aa1f1aa101a91e1aa1d1aa101a81c1aa,
  0x2b1ab2a1ab291ab281ab271ab261ab251ab241ab231ab221ab211ab201ab1f1ab1e1ab1d1ab1c1ab1b1ab1a1ab191ab181ab171ab161ab101bc0f1bc,
  0x121ac0f1ba0e1ba111ac101ac0f1ac0d1ba3c1ab3b1ab3a1ab391ab381ab371ab361ab351ab341ab331ab321ab311ab301ab2f1ab2e1ab2d1ab2c1ab,
  0x2a1ac291ac281ac271ac261ac251ac241ac231ac221ac211ac201ac1f1ac1e1ac1d1ac1d1ad1b1ac1a1ac191ac181ac171ac161ac151ac141ac131ac,
  0x421ac411ac401ac3f1ac3e1ac3d1ac3c1ac3b1ac3a1ac391ac381ac371ac361ac351ac341ac331ac321ac311ac301ac2f1ac2e1ac2d1ac2c1ac2b1ac,
  0x1e1af1d1af581ac571ac561ac551ac541ac531ac521ac511ac501ac4f1ac4e1ac4d1ac4c1ac4b1ac4a1ac491ac481ac471ac461ac451ac441ac431ac,
  0x301ae2f1ae2e1ae2d1ae2c1ae2b1ae2a1ae291ae281ae241ae271ae261ae241ad281ad271ad261ad251ad251ae231ad221ad211ad201ad1f1ad1e1ad,
  0x241af231af221af211af211b21f1af1e1b51d1b5401ae3f1ae3e1ae3d1ae3c1ae3b1ae3a1ae391ae381ae371ae361ae351ae341ae331ae321ae311ae,
  0x3b1af3a1af391af381af371af361af351af341af331af321af311af301af2f1af2e1af2d1af2d1b02b1af2a1af291af281af271af261af1f1b5251af,
  0x3e1b02e1b13d1b03c1b03b1b03a1b0391b0381b0371b0361b0351b0341b0331b0321b0311b0301b02f1b02e1b02d1b1401af3f1af3e1af3d1af3c1af,
  0x2f1b12c1af541b0531b0521b0511b0501b04f1b04e1b04d1b04c1b04b1b04a1b0491b0481b0471b0461b0451b0441b0431b0421b0411b0401b03f1b0,
  0x2d1b42b1b22a1b2291b2201b2281b22c1b1271b22c1b0261b2251b2241b2231b2221b2201af381b1371b1361b1351b1341b1331b1321b1311b1301b1,
  0x441b2431b2421b2411b2401b23f1b23e1b23d1b23d1b33b1b23a1b2391b2381b2371b2361b2351b2341b2331b2321b2311b2301b22f1b22e1b22d1b2,
  0x481b3471b3461b3451b3441b3431b3421b3411b3401b33f1b33e1b33c1b2501b24f1b24e1b24d1b24c1b24b1b24a1b2491b2481b2471b2461b2451b2,
  0x5f1b35e1b35d1b35c1b35b1b35a1b3591b3581b3571b3561b3551b3541b3531b3521b3511b3501b34f1b34e1b33c1b34d1b34c1b34b1b34a1b3491b3,
  0x3e1b43d1b43c1b43b1b43a1b4391b4381b4371b4361b4351b4341b4331b42c1b4321b4311b4301b42f1b42e1b42c1b2641b3631b3621b3611b3601b3,
  0x1e1b71d1b7541b4531b4521b4511b4501b44f1b44e1b44d1b44c1b44b1b44a1b4491b4481b4471b4461b4451b4441b4431b4421b4411b4401b43f1b4,
  0x351b5341b5331b5321b5311b5311b62f1b52e1b52d1b52c1b5201b72b1b52a1b5291b5281b5271b51f1b7261b5251b5241b5231b5221b5211b5201b5,
  0x391b6381b6371b6361b6351b6341b6331b6321b6301b5441b5431b5421b5411b5401b53f1b53e1b53d1b53c1b53b1b53a1b5391b5381b5371b5361b5,
  0x2f1b72e1b7211b92d1b72c1b7201b92b1b72a1b7291b7281b7271b71f1b9261b7301b6251b7251b8231b7221b7211b71e1b91d1b93c1b63b1b63a1b6,
  0x321b8311b8301b82f1b82e1b82d1b82c1b82b1b82a1b8291b8281b8241b8271b8261b8241b7381b7371b7361b7351b7341b7331b7321b7311b7301b7,
  0x1c1ad1c1ac481b8471b8461b8451b8441b8431b8421b8411b8401b83f1b83e1b83d1b83c1b83b1b83a1b8391b8381b8371b8361b8351b8341b8331b8,
  0x351b9341b9331b9321b9311b9301b91c1b91c1b72f1b92e1b91c1b52d1b92c1b92b1b92a1b9291b91c1af281b9271b9261b9251b9241b9231b9221b9,
  0xc1a2121ba111ba101ba0c1a0481b9471b9461b9451b9441b9431b9421b9411b9401b93f1b93e1b93d1b93c1b93b1b93a1b9391b9381b9371b9361b9,
  0x291bd271ba261ba251ba241ba231ba221ba211ba201ba1f1ba1e1ba1d1ba1c1ba1b1ba1a1ba191ba181ba171ba161ba151ba151bf0c1ba131ba0c1ac,
  0x121bc111bc0c19f281bb271bb261bb251bb241bb231bb221bb211bb201bb161bf1f1bb1e1bb1d1bb1c1bb1b1bb1a1bb191bb181bb171bb161bb151bb,
  0x261bc251bc241bc231bc221bc211bc201bc1f1bc1e1bc1d1bc1c1bc1b1bc1a1bc191bc181bc0c1bc171bc0c1ab0c1a3161bc151bc151c00c1a1131bc,
  0x311be301be2f1be2e1be2d1be2c1be2b1be2a1be291be341bd331bd321bd311bd301bd281bd2f1bd2e1bd2d1bd2c1bd2b1bd2a1bd281ba281bc271bc,
  0x181bf171bf161c3151c3441be431be421be411be401be3f1be3e1be3d1be3c1be3b1be3a1be391be381be371be361be281be351be341be331be321be,
  0x1b1c01a1c0191c0181c0161c1171c0161c0151c1281bf271bf261bf251bf241bf231bf221bf211bf201bf1f1bf1e1bf1d1bf1c1bf1b1bf1a1bf191bf,
  0x321c0311c0301c02f1c02e1c02d1c02c1c02b1c02a1c0291c0281c0271c0261c0251c0241c0231c0221c0211c0201c0171c31f1c01e1c01d1c01c1c0,
  0x211c1201c11f1c11e1c11d1c11c1c1141c11b1c11a1c1191c1141c0181c1171c1141bc3c1c03b1c03a1c0391c0381c0371c0361c0351c0341c0331c0,
  0x391c1381c1371c1361c1351c1341c1331c1321c1311c1311c22f1c12e1c12d1c12c1c12b1c12a1c1291c1281c1271c1261c1251c1241c1231c1221c1,
  0x401c23f1c23e1c23d1c23c1c23b1c23a1c2391c2381c2371c2301c2361c2351c2341c2331c2321c2301c1401c13f1c13e1c13d1c13c1c13b1c13a1c1,
  0x281c3271c3261c3251c3251c4231c3221c3211c3171c7201c31f1c31e1c31d1c31c1c31b1c31a1c3191c3181c3161c7151c7441c2431c2421c2411c2,
  0x3f1c33e1c33d1c33c1c33b1c33a1c3391c3381c3371c3361c3351c3181c7341c3331c3321c3311c3301c32f1c32e1c32d1c32c1c32b1c32a1c3291c3,
  0x2a1c4291c4281c4271c4261c5261c4251c5501c34f1c34e1c34d1c34c1c34b1c34a1c3491c3481c3471c3461c3451c3441c3431c3421c3411c3401c3,
  0x421c4411c4401c43f1c43e1c43d1c43c1c43b1c43a1c4391c4381c4371c4361c4351c4341c4331c4321c4311c4301c42f1c42e1c42d1c42c1c42b1c4,
  0x351c5341c5331c5321c5311c5301c52f1c52e1c52d1c52c1c52b1c52a1c5291c5241c5281c5241c4271c5241c3481c4471c4461c4451c4441c4431c4,
  0x1a1c7191c7161ca151ca481c6471c6461c6451c6441c6431c63c1c6421c6411c6401c63f1c63e1c63d1c63c1c53b1c53a1c5391c5381c5371c5361c5,
  0x301c72f1c72e1c72d1c72c1c72b1c72a1c7291c7291c8271c7181ca261c7251c7241c7231c7221c7171ca211c7201c71f1c71e1c71d1c71c1c71b1c7,
  0x471c7461c7451c7441c7431c7421c7411c7401c73f1c73e1c73d1c73c1c73b1c73a1c7391c7381c7371c7361c7351c7191ca341c7331c7321c7311c7,
  0x3a1c8391c8381c8371c8361c8351c8341c8331c8321c8311c8301c82f1c82e1c82d1c82c1c82b1c8281c82a1c8281c74c1c74b1c74a1c7491c7481c7,
  0x1c1ca1b1ca1a1ca141bf141ba4c1c94b1c94a1c9491c9481c9471c9401c9461c9451c9441c9431c9421c9411c9401c83f1c83e1c83d1c83c1c83b1c8,
  0x301cb2f1cb2e1cb2d1cb2c1cb2b1cb2a1cb291cb281cb141ca271cb141c7261cb251cb201cb241cb231cb141c3221cb211cb201ca1f1ca1e1ca1d1ca,
  0xc1cd0c1cc241cc231cc221cc211cc201cc1f1cc1e1cc1d1cc1c1cc0a1d01b1cc1a1cc191cc181cc171cc161cc091d0341cb141bb331cb321cb311cb,
  0x1c1cd131d0121d0111d01b1cd111d20f1d00e1d00d1d00d1d30b1d01a1cd191cd181cd171cd161cd151cd141cd131cd121cd111cd111ce0f1cd0e1cd,
  0xc1d10a1dc0b1d1141cf131cf121cf111cf091dc1c1ce1b1ce1a1ce191ce181ce171ce161ce151ce141ce0a1d1131ce101ce091d1121ce101cd141d0,
  0xd1dc121d30c1dc111d3101d30f1d3101d20d1d50a1d60e1d3141d2131d2121d2101d0141d1091d60b1dc131d1121d1111d1101d10f1d10e1d10d1d1,
  0x111d6151d4101d60f1d60e1d60d1d60d1d70b1d6121dc141d4131d4121d4111dc111d40c1cf101d40f1d40e1d4101dc0e1d5141d30f1dc0e1dc131d3,
  0x171d5161d5151d5141d5131d5121d5111d5101d50f1d50c1d01c1d41b1d41a1d4171d6161d6191d4181d4151d6171d4161d4141d60c1d4131d6121d6,
  0xc1d7091d9181d8171d8161d8151d8141d7131d7121d7111d70a1db101d70f1d70e1d70c1d6181d60c1d5091db1c1d51b1d51a1d50c1d3191d5181d5,
  0x131db121db111db181d9101db0f1db0e1db0d1db0c1db0b1db171d9161d9151d9141d9131d9121d9111d9101d90f1d90e1d90d1d90d1da0b1d90a1d9,
  0x1c1db1b1db1a1db0816b181da171da161da151da141da131da0c1da141d8121da191db181db171db161db0c1d9111da151db101da0f1da141db0e1da,
  0x111de101de0f1de0e1de0c1dd141dd131dd121dd111dd101dd0f1dd0e1dd0d1dd0d1de0b1dd0a1dd091dd141dc131dc201db081851f1db1e1db1d1db,
  0x81d6081d0081cc181de171de0819f161de0819b0819d151de0819c0818d0818608176081820817c08177081730817008168141de131de0c1de121de,
  0x81880e1df0d1df081830817e241de08172231de08167221de211de201de1f1de1e1de1d1de081dc1c1de1b1de081dd1a1de191de081db081d1081d9,
  0x71e1061e1051e11c1df1b1df1a1df191df181e0171df161df151df141df131df121df081cf111df101df0f1df081a00924009242072400624005240,
  0x1a1e1191e1181e2171e1161e1151e1141e1131e1121e1111e1101e10e2400d2400c2400b2400a2400f1e10e1e10d1e10d1e30b1e10a1e1091e1091e5,
  0xd1e70b1e40a1ef0a1e4091ef0c1e31c1e31b1e31a1e3191e3181e3171e3161e3151e3141e3131e3121e3111e3101e30f1e30e1e30c1e11c1e11b1e1,
  0xf1e50e1e50d1e50d1e60b1e50a1ee0a1e5091ee1c1e41b1e41a1e4191e4181e4171e4161e4151e4141e4131e4121e4111e4101e40f1e40e1e40d1e4,
  0xe1e70d1ec0e1eb141e6131e6121e6111e6101e60f1e60e1e60d1eb1c1e51b1e51a1e5191e5181e5171e5161e5151e5141e5131e5121e5111e5101e5,
  0xc1e6151eb141eb131eb121eb111eb101eb0f1eb0c1e5181e9171e9161e9151e9181e7171e7161e7151e70e1ec141e8131e7121e7111e7101e70f1e7,
  0xf1ee0e1ee0d1ee0c1ee0b1ee091f1101ed0c1e70c1ed0f1ed0e1ed141ea0d1ed101ec0f1ec0c1e41c1eb1b1eb0c1eb1a1eb191eb181eb171eb161eb,
  0xa1f1141ef131ef121ef111ef101ef0f1ef0e1ef0d1ef0c1ef0b1f40a1f40b1ef091f4181ee0c1ec171ee161ee151ee141ee131ee121ee111ee101ee,
  0xc1f20b1f20a1f2091f2141f1131f1121f1111f10c1f0101f10f1f10e1f10d1f10c1f1091f6141f0131f0121f0111f0101f00f1f00e1f00b1f10d1f0,
  0xc1f70c1f40b1f7181f30a1f7091f70d1fb0b1f6171f30a1f6161f3151f3141f3131f3121f3111f3101f30f1f30e1f30d1f30c1f30b1f30a1f3091f3,
  0x161f7151f7141f7131f7121f7111f70d1fe0c1fe101f70b1fe0a1fe0f1f7091fe091fd101f50f1f50e1f50d1f5101f40f1f40e1f40e1f70d1f40d1f7,
  0x161f9151f9101fe0f1fe0e1fe0d1ff0b1fd141f90a1fd131f9121f9111f9101f90f1f9000000e1f90d1f91c1f71b1f71a1f7191f7181f80c1f5171f7,
  0x92031c1fc1b1fc1a1fc191fc181fc171fc161fc151fc00000141fc131fc121fc111fc101fb0f1fb0c1f61c1f91b1f91a1f9191f9181fa171f90e1fb,
  0xe1ff0d200201fe1f1fe1e1fe1d1fe1c1fe1b1fe1a1fe191fe181fe171fe161fe0e203151fe141fe131fe121fe0d2030d207111fe0b2030a20309204,
  0x1c1ff1b1ff1a1ff191ff181ff171ff161ff102040c1fb0c1f9151ff141ff0f2040e2040d2040d2050b204131ff0a204121ff111ff101fc101ff0f1ff,
  0x17202162021520214202132021220211202102010f2010e2010d201102000f2000e2000c1fd241ff231ff221ff211ff201ff1f1ff1e1ff1d1ff,
  0x920e182031720316203152030f20d0e20d142031320312203112030d20d0c20d102030b20d0a20d0f2030920d1c2021b202000001a2021920218202,
  0x192081720516205152051420513205122050c20111205102050f2050e2050d20a182040c20010202172040c1ff162041520414204132041220411204,
  0xf2070e2070c203242062320622206212060e20f1020e202061f2061e2061d2060f20e0e20e0d20e0d20f0b20e1c2060a20e1b2060e20a1a20619206,
  0x262072520724207232072220721207202071f2071e2071d2071c2070c2071b2071a20719207192091720716207152071420713207122071120710207,
  0x3d2073c2073b2073a207392073820737207362073520734207332073220731207302072f2072e2071a2082d2072c2072b2072a207292072820727207,
  0x2420923209222092120900000202091f2091e2091d2091c209182091b2091a209182071c2081b2081820544207432074220741207402073f2073e207,
  0x3b2093a20939209382090000037209362093520934209332093220931209302092f2092e2092d2092c2092b2092a2092920928209272092620925209,
  0x51209502094f2094e2094d209182084c2094b209182064a209492094820947209462094520944209432094220941209402093f2093e2093d2093c209,
  0x1820c1820b0c20a1420a1a20c0c2051c20b1b20b1a20b1920b1920c1720b1620b1420b1520b1320a1220a1120a1020a0f20a0c204542095320952209,
  0xb218112100a218102100f2100e2100d2100c20f0d2120b2100a210092101420f1320f1220f1120f1020f0f20f092140c20e1020d092181c20c1b20c,
  0x1221411214102140a2110921118210172100f2140e2140d2140d2160b214112180a214102180f218162101521014210132100e2180d218122100c218,
  0xc21114212132121221211212102120f2120e2120c2101821117211162111521114211132111221111211102110f2110e2110d2110d2130b21113214,
  0x11216102160f2160e2160c2141c2151b2151a2151921518215172151621515215142140921b0c21314213132131221311213102130f2130e2130c212,
  0x1221814217132170f21b0e21b0d21b0d21d0b21b122170a21b0c21711217102170f2170e2170d217182160c216172161621615216142161321612216,
  0x202180c2200b2201f2180a220142151e2181d2181c2181b2181a218192181821817218162181521814218132181421b1321b1221b1121b1121c09220,
  0x14219092281821a1721a1621a1521a202191f2191e2191d2191c2191b2191a219122201122019219112240f220182191721916219152190e2200d220,
  0x1e21c1d21c1c21c1b21c1a21c1921c1821c1721c1621c1021c1521c1421c1321c1221c1421a1021b1c21b1b21b1a21b1921b1821b1721b1621b1521b,
  0x1521d1421d1321d0e2211522814228132281222811228102281221d1121d1121e0f21d0f2280e2280d2280d2290b2280d2210a2280e21d2021c1f21c,
  0x2421e2321e2221e2121e2121f1f21e1e21e1d21e1c21e1b21e1a21e1921e1821e1721e1621e1521e1421e1021e1321e1221e1021d1821d1721d1621d,
  0x2f21f2e21f2d21f2c21f2b21f2a21f2921f2821f2721f2621f2021f2521f2421f2321f2221f2021e2c21e2b21e2a21e2921e2821e2721e2621e2521e,
  0xd22d0b22a1a2210a22a19221182211722116221152211422113221122210d22711221112230f2211922217220162201522014220132200922a3021f,
  0x2522224222232222222221222202221f2221e2221d2221c2221b2221322a1222a1122a1a2221022a0f22a182200f2271c2210e2270e22a0d22a1b221,
  0x1322412224102201c2231b2231a22319223182231722316223152231222514223132231222311225182222c2222b2222a22229222282222722226222,
  0x2a224292242822427224262242522424224232242222421224202241f2241e2241d2241c2241b2241a22419224102241822417224162241522414224,
  0x20226182261f2261e2261d2261c2261b2261a22619226102251822517225162251022315225142251322510221302242f2242e2242d2242c2242b224,
  0x232272222721227202270c2270c2211f2270c21d1e2271d2271c2271b2271a227192271822717227162271522714227132271222711227102270c21b,
  0xf22b0e22b0d22b0d22c0b22b0a22b1422a18229172291622915229142291322912229112290c229102290f2290e2291822817228162280922b24227,
  0xf22d0c22a0e22d1822c1722c1622c1522c1422c1322c092300c2281222c1122c1022c0f22c0e22c0e22e0d22e0922f1422b1322b1222b1122b1022b,
  0x9231102300f2301122e0e2300d2301022e0d2330b2300a2300f22e1022f0f22f1422d1322d1222d1122d0e22f0d22f0c22d0c22f0b22f1022d0a22f,
  0xb2350a235092350c22e0c234102330f2330923a0c22c0c22b0e2330c2300a23c102310f2310e2310d2310c2320923c1422e1322e1222e0b2310a231,
  0xb23a142350a23a1723c1623c1523c132351423c1323c1223c122351123c1023c11235102360f2350e2350f23c0e23c0d2350d23c0d23e0c2350b23c,
  0x1223711237102380f2370e2370d2371223b1123b1023b0f23b0e23b1423a1323a1223a1123a1023a0d2390b2370a237092370f23a0e23a0d23a0d23b,
  0x1b23c1a23c1923c1823c1823b0c23b1723b1623b1523b1423b1323b0c23a081ee1423913239122390c23911239102390f2390e2390c2371423713237,
  0x1c23d081f6081f3081f2081f1081e51b23d081e11a23d1923d1823d1723d1623d1523d1423d1323d1223d1123d1123f0f23d0e23d0d23d0c23d1c23c,
  0x2723d2623d2523d2423d082312323d2223d2123d0823a2023d0820d08237082300822b082280821b08214082110820e08204081fd1f23d1e23d1d23d,
  0x8218082101223e08203081fe0c23c1123e1023e0f23e081f7081f40e23e081ef081e43023d081df2f23d2e23d2d23d2c23d2b23d2a23d2923d2823d,
  0x2423e2323e2223e2123e2023e1f23e1e23e1d23e1c23e1b23e1a23e1923e1823e1723e1623e1523e0823c1423e1323e082350822f0822a0c23e08220,
  0x1823f1723f1623f1523f1423f1323f1223f1023d3423e3323e3223e3123e3023e2f23e2e23e2d23e2c23e2b23e2a23e2923e2823e2723e2623e2523e,
  0x2f23f2e23f2d23f2c23f2b23f2a23f2923f2823f2723f2623f2523f2423f2323f2223f2123f2023f1f23f1e23f1d23f1c23f1b23f1023f1a23f1923f,
  0x1a240192401824017240162401524014240132401224009241092470724106241052410000011240102400f2403423f3323f3223f3123f3023f,
  0x2c2400f2410e2410d2410c2410b2410a2412b2402a240292402824027240262402524024240232402224021240202401f2401e2401d2401c2401b240,
  0xb2420a2430a24209243102410a26f0926f092760726f0626f0526f3824037240362403524034240332403224031240302402f240000002e2402d240,
  0xd26f0d2710b26f16243152431424313243122431124300000102430f2430e2430d2430b2440c2430a2440b24309244102420f2420e2420d2420c242,
  0x162441524414244132441224411244102440f2440e2440c2490b2490d2440a2490d245092491c2431b2431a2431924318243172431026f0f26f0e26f,
  0x14246102461324612246102451824517245162451524514245132451224511245112460e2480f2450e2450d2481c2441b2441a244192441824417244,
  0x924c0e2490d2490c245102480f2480c244102470f2470e2470d2470c2470a24a0b2470a2470924a1c2461b2461a2461924618246172461624615246,
  0x1024a0f24a0b2510e24a0d24a0a2510c24a0b24a09251182491724916249152491424913249122490d24c11249102490c24c0b24c0c2480a24c0f249,
  0x2824a2724a2624a2524a2424a2324a2224a2124a2024a1f24a1e24a1d24a1d24b1b24a1a24a1924a1824a1724a1624a1524a1424a1324a1224a1124a,
  0x4024a3f24a3e24a3d24a3c24a3b24a3a24a3924a3824a3724a3624a3524a3424a3324a3224a3124a3024a2f24a2e24a2d24a2c24a2b24a2a24a2924a,
  0x2b24b2a24b2924b2824b2724b2624b2524b2424b2324b2224b2124b2024b1c24b1f24b1e24b1c24a4824a4724a4624a4524a4424a4324a4224a4124a,
  0x4324b4224b4124b4024b3f24b3e24b3d24b3c24b3b24b3a24b3924b3824b3724b3624b3524b3424b3324b3224b3124b3024b2f24b2e24b2d24b2c24b,
  0xa24d0e24c0924d5824b5724b5624b5524b5424b5324b5224b5124b5024b4f24b4e24b4d24b4c24b4b24b4a24b4924b4824b4724b4624b4524b4424b,
  0xe2500d2501224d1124d0c2500b2501024d0a2500f24d092501824c1724c1624c1524c1424c1324c1224c0e24d0d24d1124c1024c0d24e0b24d0f24c,
  0x1324f0c24f1224f1124f1024f0f24f0e24f0d24f1824e0c24e1724e1624e1524e1424e1324e1224e1124e1024e0f24e0e24e0c24d1424d0f2501324d,
  0xb26d0e2510d2510a26d0d253102520926d0f252142500e2520d25213250122500d2540b252112500a25210250092521824f1724f1624f1524f1424f,
  0xf2530e25311258102580e2570f2580d2570e2580d25814252132520c2580b258122520a2581125209258142510c26d132511225111251102510f251,
  0x162541525414254132541225411254112550f2540c2540e2540c2521c2531b2531a25319253182531725316253152531425313253122531125310253,
  0x1425713257122570c25711257102570c253102550c2510f25718256172561625615256142551325512255102541c2541b2541a254192541825417254,
  0x2c2572b2572a257292572825727257262572525724257232572225721257202571f2571e2571d2571c2571b2571a2571925718257172571625715257,
  0x1e2581d2581c258142561b2581a258192581825812259112591126b172580f259162580e2590d25915258142580d26c0b259132580a2591225809259,
  0x1326e192591226e1126e1026e1925b0f26e172590e26e0d26e16259152590c26e0b26e152610a26e132590926e24258232582225821258202581f258,
  0x192601825f1825e1825d1825b1825a1c25e1c25f1b25f1a25f1925f1c25c1b25c1b25e1a25e1925e1c25b1b25b1a25b1a25c1925c1c2591b2591a259,
  0x1926319265172631726716267152671c2621b262182621a262182611c2611b2611a2611926119262172611626116263152631c2601b2601a26018260,
  0x1626a1526a1c2671b2671a267192671826719269172681626815268182661c2661b26618265182641c2651b2651a2651a266192661c2631b2631a263,
  0x1326b1226b102591c26a1b26a1426a1a26a14268142671426314261142591c2691b269182691a269182681c2681b2681a268192681926a1826a1726a,
  0xf26d0e26d082470d26d0c26c082411826c1726c1626c1526c1026b1426c1326c1226c1126c1026c0f26c0e26c0c2591826b1726b1626b1526b1426b,
  0x1526f0825808252082501426f0824d1326f0824c082491226f1126f08244082430826d082421426e08240082511426d1326d1226d1126d1026d0824a,
  0xc2700b2700b2c10a2c1092c1092c5072c1062c1052c11c26f1b26f1a26f1926f1826f1726f1626f0a27009270092750727006270052700826e08259,
  0xd2cb0e274162711527114271132711227111271102710f2710e2710d2741827017270162701527014270132701227011270102700f2700e2700d270,
  0xc2750b2750a2750a27709277102740f2740c26f1c2731b2731a273192731c2721b2721a272192721827117271122c1112c1102c10f2c10e2c10d2c1,
  0xc2760b2760a2760a279092791c2751b2751a275192751827517275162751527514275132751227511275102750c274182720f2750c2710e2750d275,
  0xd2780b27c0a27c0927c000000b2771c2761b2761a27600000192761827617276162761527614276132761227611276102760f2760e2760d27618273,
  0x1327812278112780e27a102780f2780e2780d27a1c2771b2771a277192771827717277162771527714277132771227711277102770f2770e2770d277,
  0xc277182791727916279152791427913279122790000011279102790f2790e2790d2790d27b0b2790b27d0a27d0927d1827817278162781527814278,
  0xa27e0927e1427c1327c0c27a0c27b1227c1127c1027c0f27c0e27c0d27c0c27c0c28c0b28c0a28c0928c1027b0f27b0e27b0c2780c2791027a0f27a,
  0x102810f2810e2810d281102800f2800e2800d2800c27f0b27f0a27f0927f0928d1427d1327d1227d1127d1027d0f27d0e27d0d27d0c27d0c27e0b27e,
  0x1b2841a28419284182840e28d0d28d0c28d0b28d0a28d1728416284152841428413284122841128414283132831228311283102820f2820e2820d282,
  0xc285172860c282162861528614286132860c2811228611286102850f2850e2850d28524284232842228421284202841f2841e2840c2801d2841c284,
  0x1128a24289232892228921289202881f2881e2881d2881c2871b2871a287102841928710283182871728716287152871428713287122871128718286,
  0x92931028c0f28c0928f0e28c0c28e0b28e0a28e0928e1028a0d28c1c28b1b28b1a28b1928b1828b1728b10287102861628b1528b1428a1328a1228a,
  0xe2910d2910c2911428b202891c2880b2910a29109291102900f2900e2900d2900c28f0b28f0e2920d2920a28f0c2920b2920a292092921028d0f28d,
  0x132921229211292102920f2920929f1829117291162911529114291132911129312291102930f2930e2930d2930c2930b2930a29311291102910f291,
  0xf29f0e29f102960d29f0c29f0b29f0a29f0f2960e2960c294102950f2950e2950d2950d2960b2940a2940c29009294142931329312293092a014292,
  0x102980f2980e2980d2980d29a142a00b298132a00a298122a0112a009298102a00f2a00e2a00d2a00c2a00b2a00a2a0102970f2970e2970d2970c296,
  0xe29a0c29a24299232992229921299202991f2991e2991d2990c2971c2991b2991a29919299182991729916299152990c29514298132981229811298,
  0x1629e1529e1429e1329e1229e1129e1029e0f29e0e29e0d29e1829d1729d1629d1529d1429c1329c1229c1129c1029b0f29b0e29b0d29b1029a0f29a,
  0x132a1122a1112a10c29e102a10f2a10e2a10d2a10c2a10b2a1092aa0a2a1092a11429f1329f142991229f0c29b1129f1029f092a20c2981829e1729e,
  0x102aa0f2aa0e2aa0d2aa0d2ab0b2aa0a2aa122a21429d112a2102a2092a91029c182a1172a10f2a20e2a2162a10d2a20c2a20b2a20a2a2152a1142a1,
  0x1e2a21d2a21c2a21b2a21a2a2192a20f2a90e2a9182a20d2a90c2a90b2a90a2a90f2ab172a2162a20e2ab142aa152a2132aa142a2122aa112aa132a2,
  0x342a2332a2322a2312a2302a22f2a22e2a22d2a22c2a22b2a22a2a2292a2282a2272a2262a2252a2242a2232a2222a2112a9212a2212a4102a91f2a2,
  0x262a4252a4242a4232a4222a4222a5212a5342a3442a3432a3422a3412a3402a33f2a33e2a33d2a33c2a33b2a33a2a3392a3382a3372a3362a3352a3,
  0x3e2a43d2a43c2a43b2a43a2a4392a4382a4372a4362a4352a4342a4332a4322a4312a4302a42f2a42e2a42d2a42c2a42b2a42a2a4292a4282a4272a4,
  0x312a5302a52f2a52e2a52d2a52c2a52b2a52a2a5292a5282a5272a5262a5252a5242a5232a5232a6222a6212a6442a4432a4422a4412a4402a43f2a4,
  0x2c2a62b2a62a2a6292a6282a6242a7272a6262a6252a6242a6232a7222a7212a73c2a53b2a53a2a5392a5382a5372a5362a5352a5342a5332a5322a5,
  0x332a7322a7312a7302a72f2a7252a82e2a72d2a72c2a72b2a72a2a7292a7242a8282a7272a7262a7252a7232a8222a8212a8302a62f2a62e2a62d2a6,
  0x202a5202a4202a2482a7472a7462a7452a7442a7432a7422a7412a7402a73f2a73e2a73d2a73c2a73b2a73a2a7392a7382a7372a7362a7352a7342a7,
  0x102ab0c2aa142a9132a9122a9092ae342a8332a8322a8312a8302a8202a8202a72f2a82e2a82d2a82c2a82b2a82a2a8202a6292a8282a8272a8262a8,
  0xd2b70b2b10a2b10c2b00b2b00a2b0092b00c2ae0b2ae0a2ae182ad172ad162ad152ad182ac092b1172ac142ab162ac0c2ab152ac132ab122ab112ab,
  0x112b5102b50f2b50e2b5082af0d2b5182b4172b4162b4102b4152b4142b4132b4122b408292102b3142b3132b3122b3112b3112b40f2b30e2b30d2b3,
  0x112b60829f102b60f2b60e2b60d2b6182b50f2b70e2b70828e0828c172b50827c082770827508270142ad162b5152b5142b5092bf132b5122b5142ac,
  0x192b6182b6152bf142bf172b6132bf162b6122bf112bf152b6102bf0f2bf0e2bf0d2bf0d2c00b2bf0a2bf142b6132b6122b6082b0082a9082a2102b7,
  0xd2b8202b71f2b71e2b71d2b71c2b71b2b71a2b7192b7182b7172b7162b7152b7142b7132b7122b7112b70c2b11c2b61b2b61a2b6182bf172bf162bf,
  0xc2b50c2b3232b8222b8212b8202b81f2b81e2b81d2b81c2b81b2b81a2b8192b8182b8172b8162b8152b8152b9132b8122b8112b8112ba0f2b80e2b8,
  0x162ba152ba142ba122bb132ba122ba112bb1c2b91b2b91a2b90c2b80c2b7192b9182b9172b9142b90c2b6142b8162b9282b8272b8262b8252b8242b8,
  0x212bb202bb1f2bb1e2bb1d2bb1c2bb1b2bb1a2bb192bb192bc172bb162bb152bb132bd122bd142bb132bb112bd1c2ba1b2ba1a2ba192ba182ba172ba,
  0x282bc272bc262bc252bc242bc232bc222bc212bc202bc1f2bc1e2bc182bc1d2bc1c2bc1b2bc1a2bc182bb282bb272bb262bb252bb242bb232bb222bb,
  0x122be102be112be202bd1f2bd1e2bd1d2bd1c2bd102bd1b2bd1a2bd192bd182bd172bd162bd102bb102ba152bd142bd102b82c2bc2b2bc2a2bc292bc,
  0x242bf232bf222bf212bf202bf1f2bf1e2bf1d2bf1c2bf1b2bf1a2bf192bf0827e000001c2be1b2be1a2be192be182be172be162be152be142be132be,
  0x8291142c10828f0828d0827f0827d08279082760826f0c2c0132c1142c0132c0122c0112c0102c00f2c00e2c00c2bf282bf272bf262bf252bf00000,
  0x92c7072c2062c20c2e90b2e90a2e9092e9092ee072e9062e9052e9082bf052c2082b2082aa082a1182c1172c1082a008298162c108294152c108293,
  0xf2e90e2e90d2e90e2c31c2c21b2c21a2c2192c2182c2172c2162c2152c2142c2132c2122c2112c2102c20f2c20e2c20d2c20d2c30b2c20a2c2092c2,
  0x162c4152c4142c4132c4122c4112c40f2c60e2c6102c40f2c40d2c6142c3132c3122c3112c30e2c4102c30f2c30d2c4142e9132e9122e9112e9102e9,
  0x1a2c5192c5182c5172c5162c5152c5142c5132c5122c5112c5102c50f2c50e2c50d2c50c2c50b2c50a2c5092cd1c2c41b2c41a2c4192c4182c4172c4,
  0xc2c70b2c70a2c7092cc1c2c61b2c61a2c6192c6182c60a2cd172c6162c60c2c6152c6142c6132c6122c60c2c40c2c3112c6112c80c2c21c2c51b2c5,
  0x1f2c9102c81e2c91d2c91c2c91b2c91a2c9192c9182c9172c9162c9152c9142c8132c8122c8102c6142c7132c7122c7112c7102c70f2c70e2c70d2c7,
  0xc2cb0b2cd092d3142cc132cc122cc112cc102cc0f2cc0e2cc0d2cc0c2cc0b2cc092cf102cb0f2cb0e2cb0c2c1182ca0a2cc172ca162ca152ca202c9,
  0x142ca0e2ce0d2ce0d2d10b2cf0a2cf0c2ce0b2ce0a2ce092ce182cd172cd162cd152cd142cd132cd122cd112cd102cd0f2cd142c90e2cd0d2cd0c2cd,
  0x172cf162cf152cf142cf132cf122cf112cf102cf0f2cf0e2cf0d2cf092d4182ce172ce162ce152ce0b2d3142ce0a2d3132ce122ce112ce102ce0f2ce,
  0x102d10c2d40b2d40a2d40f2d10e2d10d2d2282d0272d0262d0252d0242d0232d0222d0212d0202d01f2d01e2d01d2d01c2cf1b2cf1a2cf192cf182cf,
  0x172d2162d2152d2142d2132d2122d2112d2102d20f2d20c2cf1c2d11b2d11a2d1192d1182d1172d1162d1152d1142d10e2d2132d1122d1112d10d2d4,
  0xe2d50d2d50c2d50b2d5092dc0a2d5102d40f2d40e2d41c2d0092d6102d30f2d30e2d30d2d30c2d30c2d2092d51c2d21b2d21a2d2192d20c2d1182d2,
  0xc2d60b2d60a2d6232d5222d5212d5202d51f2d51e2d51d2d51c2d51b2d51a2d5192d5182d5172d5162d5152d5142d5132d5122d5112d5102d50f2d5,
  0x92d8342d5332d5322d5312d5302d52f2d52e2d52d2d52c2d52b2d52a2d50d2dc292d5282d50d2df272d5262d50b2dc252d50a2dc0e2d60d2d6242d5,
  0x122d7102d6242d6232d6222d6212d6202d61f2d61e2d61d2d61c2d61b2d61a2d6192d6182d6172d6162d6152d6142d6132d6122d6112d6112d70f2d6,
  0x232d7222d7212d7202d71f2d71e2d70f2d8102d71d2d71c2d71b2d70e2d80d2d81a2d70d2d90b2d80a2d8192d7182d7172d7162d7152d7142d7132d7,
  0xe2da182d9172d9162d9152d9142d9132d9122d9112d9102d90f2d90e2d90d2da182d8172d8162d8152d8142d8132d8122d8112d8102d8092e1242d7,
  0x102e1182da172da162da0f2e10f2dd152da0e2dd152db0e2e10d2e1132da0d2e20b2e10a2e1122da112da102da0f2da0d2dd1c2d91b2d91a2d9192d9,
  0x302da2f2da2e2da2d2da2c2da2b2da2a2da292da282da272da262da252da242da232da222da212da202da1f2da1e2da1d2da1c2da1b2da1a2da192da,
  0x232db222db212db202db1f2db1e2db1d2db1c2db1b2db142db1a2db192db182db172db162db142da382da372da362da352da342da332da322da312da,
  0x3b2db3a2db392db382db372db362db352db342db332db322db312db302db2f2db2e2db2d2db2c2db2b2db2a2db292db282db272db262db252db242db,
  0xc2da132de0c2d9122de112de102de0f2de0e2de0d2de142dd132dd122dd112dd102dd0c2d8142dc132dc122dc112dc102dc0f2dc0e2dc092e03c2db,
  0xe2e0132df122df112df102df0f2df0d2e00e2df0c2df0d2e30c2dc1c2de0b2e01b2de0a2e01a2de192de182de172de162de152de0c2de142de0c2dd,
  0x2b2df2a2df292df282df272df262df252df242df232df222df212df202df1f2df1e2df1d2df1c2df1b2df1a2df192df182df172df162df152df142df,
  0x142e0132e0122e0112e0102e00f2e0092e53c2df3b2df3a2df392df382df372df362df352df342df332df322df312df302df2f2df2e2df2d2df2c2df,
  0xf2e30e2e31c2e21b2e21a2e2192e2182e2172e2162e20e2e4152e2142e2132e2122e2112e2102e20f2e20e2e20d2e4092e7142e1132e1122e1112e1,
  0x192e30f2e70c2e3182e30f2e5172e30e2e70d2e70e2e50d2e80b2e70a2e7162e3152e30d2e5142e3132e30c2e5122e30c2e00b2e5112e30a2e5102e3,
  0x102e5082c50c2e41c2e41b2e41a2e4192e4182e4172e4162e40c2e2152e4142e4132e4122e4112e4102e4112e70f2e40c2e11c2e3102e71b2e31a2e3,
  0x282e5272e5262e5252e5242e5232e5222e5212e5202e51f2e51e2e51d2e51c2e51b2e51a2e5192e5182e5172e5162e5152e5152e6132e5122e5112e5,
  0x1a2e6192e6182e6082dc172e6162e6142e6142e5342e5082d5332e5322e5082d3312e5302e5082cd2f2e5082c12e2e52d2e52c2e52b2e52a2e5292e5,
  0x182e7172e7162e7152e7142e7132e7122e7082c7282e6272e6262e6252e6242e6232e6222e6212e6202e61f2e61e2e61d2e61c2e6082e51b2e6082e0,
  0x172e9162e9152e91c2e81b2e80c2e81a2e8192e8182e8172e8162e8152e8142e8132e8122e8112e8102e80f2e80e2e80c2e71c2e71b2e71a2e7192e7,
  0xf2eb0e2eb0d2eb0c2eb0b2eb082e10a2eb092eb092ed082d8072eb062eb052eb082d61c2e91b2e91a2e9192e9082d4082cf182ea082ce082cc082c2,
  0x92f61c2eb1b2eb1a2eb192eb182ec172eb162eb152eb142eb132eb122eb112eb102eb0d33e0d3400b33e0a33e0933e093420733e0633e0533e082e7,
  0x122ee112ee102ee0f2ee0e2ee0d2ee1633e1533e1433e1333e1233e1133e1033e0f33e0e33e0d2f20b2ee0a2f40a2ee092f40c2ed0b2ed0a2f60a2ed,
  0xe2f30d2f3102f20f2f20e2f20c2ee182f0172f0162f0152f0142f1132f0122f0112f0102f00f2f00e2f00d2f0182ee172ee162ee152ee142ef132ee,
  0x102f50f2f50e2f50d2f50c2f5092fa0c2f3142f4132f4122f4112f4102f40f2f40c2f20e2f40d2f40c2f40b2f50a2f50b2f4092f5102f30c2f00f2f3,
  0x122f70a2fa112f7102f70f2f70e2f70d2f7142f6132f6122f6112f6102f60f2f60e2f60d2f60b2f90c2f60a2f90b2f6092f9142f5132f5122f5112f5,
  0xc2f9102fa0f2fa0e2fa0d2fa09305102f90f2f90e2f90c2fe0b2fe0d2f90a2fe0d2fb092fe182f7172f7162f7152f70c2f7142f8132f70c2fa0b2fa,
  0x1b2fc0a3051a2fc192fc182fd172fc162fc152fc142fc132fc122fc112fc0c2fb102fc0f2fc0e2fc0d2fc0c2fc0b2fc0a2fc092fc102fb0f2fb0e2fb,
  0x1a2fe192fe182ff172fe162fe152fe142fe132fe122fe112fe102fe0f2fe0d3010d3040b3000e2fe0a3000d2fe093000e3050d3051c2fc0c3050b305,
  0x103011c3011b3011a3011930118301173011630115301143011330112301113010e306113020d3060c3060b3060f3010a3060e301093061c2fe1b2fe,
  0x193030000018303173031630315303143031330312303113030f304103030f3030e3030d3030e3041830217302163021030215302143021330212302,
  0x17305163051530514305133050a3171230511305103050f305093171830417304163041530414304133041230411304103040c3001c3031b3031a303,
  0xf3170e317183060d3170d320173060b3171630615306143061330612306000000f3090e309113060d3090d30f0b309103060a3090f3060930918305,
  0x9312113091130a1830817308000001630815308143081330812308113081130b0f3080e3080d3080c3040c3031131b0d3110b3070a3070c30109307,
  0x1730a1630a1530a1530c1230e0e3111330a1230a1130e183091730916309113131530914309103130f313000000e3130d3130b312133090a31212309,
  0x2630b2530b2430b2330b2230b2130b2030b1f30b1e30b1d30b1c30b1b30b1a30b1930b1830b1730b1630b1530b1030b1430b1330b1230b103081830a,
  0x2430c2330c000002230c2130c2030c1f30c1e30c1d30c1c30c1630d1b30c1a30c1930c1830c1730c1630c1530d2c30b2b30b2a30b2930b2830b2730b,
  0x1730e1630e1030a1530e1430e1330e103092430d2330d2230d2130d2030d1430d1f30d1e30d1d30d1430c1c30d1b30d1a30d1930d1830d1730d1430a,
  0x173101631015310143101331012310113100c3100c30f103100f310000000e3101030e0d3101430f1330f1230f1130f1030f0f30f0e30f0c3091830e,
  0xa3230d31809323203111f3111e3111d3111c3111b311000001a311193111831117311163111531114311133111231111311103110f3110c30718310,
  0x11314103140f3140e3140d3141c3131b3131a3130c30819313183131731316313113231032315313143130f3230e323133130d3230d3250b32312313,
  0xe3160d316243152331522315213150f318203151f3150e3181e3151d3151c3151b3151a31519315183140c311173141631415314143141331412314,
  0x1631915319143190a32213319123190c31211319093221c3161b3161a3161931618316173161631615316143161331612316113161131e103160f316,
  0x1c31a0d3220c3221331e0b3221231e1b31a183151a31a1931a1831a1731a1631a1531a1531c1331a1231a1131a1c3191b3191a319193191831917319,
  0x1931b1831b0c3161731b1631b1531b1531d1331b1231b103172431a0c3142331a2231a0c31311322103222131a2031a1f31a1e31a1d31a0f3220e322,
  0x1431c1f31c1e31c1d31c1c31c1b31c1a31c1931c1831c1731c1631c1431a2431b2331b2231b2131b2031b1f31b1e31b1d31b1c31b0c3181b31b1a31b,
  0x2531d2431d2331d2231d2131d2031d1f31d1431d1e31d1d31d1c31d1b31d1a31d1931d1831d1031b1731d1631d1431b2431c2331c2231c2131c2031c,
  0x1b31e1a31e1931e1831e1731e1631e1531e1431e103183431d3331d3231d3131d3031d2f31d2e31d2d31d2c31d2b31d2a31d2931d2831d2731d2631d,
  0x1f31f1e31f1d31f1c31f1b31f1a31f1931f1831f1731f1631f1531f1431f1331f1231f1131f2431e2331e2231e2131e2031e1f31e1e31e1d31e1c31e,
  0x1e3201d3201c3201031f1b3201a320193201031e1832017320163201532014320133201031a123201031911320103200f3200c3200e3200c3172031f,
  0x363203532034320333203232031320303202f3202e3202d3202c3202b3202a320293202932127320263202532024320233202232021320203201f320,
  0x28321393213832137321363213532134321333213232131321303212f3212e3212d3212c3212b3212a321283203c3203b3203a320393203832037320,
  0x1132a1032a0b3240a3240f32a0e32a093240d32a0c32a0b32a0b32d0a32a143230932a133230a32d123231432213322123220932d3c3213b3213a321,
  0xe3250d3271332d1232d1132d18324173241632415324143241032d0f32d133240e32d0d32d123240c32d11324103240f3240e3240d3240d3261232a,
  0xc325103270f3270e3280c32314326133261232611326103260f3260e3260d32818325173251632515325143251332512325113250e327103250f325,
  0x932b14329133291232911329103290c3280f3290e3290d3290c3260c3291432813328123280c32711328103280f3280c32414327133271232711327,
  0x1632b0d32e0d32f0b32e1532b0a32e1432b0932e1832a1332b1232b1132b1032b1732a1632a0f32b0e32b1532a0d32b0c32b0b32b1432a0a32b1332a,
  0xb3360a3350c32f093351032f0a3360f32f0e32f0c32e1432d093361c32b1b32b1a32b1932b1432e1332e1232e1132e1032e1832c1732b0f32e0e32e,
  0x1933618336183301733616336173301533616330153301433615331133361233611336103360f3361332f1232f0e3360d3361132f0c3360d3370b335,
  0x1b333143311a33319333183321733216332153321833117331163311432f0c335203301f3301e3301c3361b3361a3361d3301c3301b3301a33019330,
  0x15339082f5143391333912339113391033912337113370f3390e339103370d3390d33c0b3390f3370a3390e33709339183341733416334153341c333,
  0x143340f3380e338143320d3380d33a0b3380a338093381c3371b3371a33719337183370c337083221733716337143301533708305143371333716339,
  0x82eb08338083360832d1833917339183380832408317083071733816338153381433813338082fc082fa18333082f4082ee12338082e91133810338,
  0xc3391433a1333a1233a08339083350832e1133a0832b0832a0832308312083091033b0f33a08306083000e33a082fe082f9082f60c33a082ed0c338,
  0x93430733f0633f0533f1833e1733e0e34d0d34d0c34d0b34d0a34d0934d093500734d0634d0534d1433c1333c1233c1133c1033d0f33c0c33c0e33c,
  0x1634d1534d1434d1334d1234d1134d1034d0f34d1833f1733f1633f1533f1433f1333f1233f1133f1033f0f33f0e33f0d33f0d3410b33f0a33f0933f,
  0xa3460c3410a34309346103420c3400f3420e3420d3420c3420a3450b3420a34209345103410f3410e3410c33f103400f3400e3400c33e1834d1734d,
  0x93471834417344163441534414344133441234411344103440f3440e3440d3440c3440b3440a344093440b346103430f3430e3430d3430c3430b343,
  0xb348133461234611346103460f3460e3460a3480d3460c34609348143450b347133451234511345103450f3450e3450d3450c3450a347000000b345,
  0xb34c1234811348103480f3480c34b0e3480a34c0d3480b34b0934c14347133471234711347103470f3470e3470a34b0d3470d3490934b0d34a14346,
  0xc34a0e34a0c3481c3491b3491a349193491834917349163491534914349133491234911349103490f3490c3490d34c0c3470e349143480c34c13348,
  0x1434b1334b1234b1134b1034b0f34b083420e34b0d34b0833e1c34a1b34a1a34a1934a1834a1734a1634a1534a1434a1334a1234a1134a1034a0f34a,
  0x83480534e1834c1734c083461634c083441534c1434c1334c1234c1134c1034c083430f34c0834b0833f083470e34c1834b1734b083451634b1534b,
  0xf35f0e35f0d35f0d36f0b35f0a35f0935f093610735f0635f0535f1134e1034e0f34e0e34e0d34e0c34e0b34e0a34e0934e093510734e0834c0634e,
  0x1235f1135f1035f000000f3500e3500d3500d3520b3500a3540a350093541c34f1b34f1a34f000001934f1834e1734e1634e1534e1434e1334e1234e,
  0xa3550a351093551c3501b3501a3501935018350173501635015350143501335012350113501035006360053601835f1735f1635f1535f1435f1335f,
  0xc351103520f3520e3520c3501c3511834f1b3511a351193511835117351163511535114351133511235111351103510f3510e3510d3510d3530b351,
  0x9358103550f3550e3550c3530d3550b3560c3550c3520a3560b35509356103540f3540e3540b3570d3540c3540a3570b35409357103530f3530e353,
  0xe3570d3570c357093591c3561b3561a356193561835617356163561535614356133561235611356103560f3560c3580b3580e3560d3560a3580c356,
  0xc3590a35d0b3590935d0a35914358133581235811358103580d35a0c35a0b35a0f3580e3580a35a0d3580935a14357133571235711357103570f357,
  0xc35d0935b0b35d1435a1335a1235a0e35c1135a0d35c0c35c0b35c1035a0f35a0a35c0e35a0935c14359133591235911359103590f3590e3590d359,
  0x1335c0e35e1235c0d35e0c35e0b35e1135c1035c0a35e0f35c0935e1435b0e35d1335b1235b1135b1035b0f35b0e35b0d35b0c35b0d35d0b35b0a35b,
  0x936009386073601435e0835a1335e0835808356083551235e1135e083511035e0834e1435d1335d1235d1135d1035d083590f35e083570f35d1435c,
  0x6435054350835d1836017360163600835b1536014360133601236011360103600f3600e360083540d3600d364083500835e0834d0b3600a3600835c,
  0x1236111361103610f3610e3610d3610d3620b3610a3610937e1c3601b3601a36019360104360f4350e4350d4350d4370b4350a435094350944107435,
  0xd3630a37e1c3611b3611a3611936114437134370e43b1243711437114380f4370e4371443513435124350d43b183611736116361153611436113361,
  0x24362233622236221362203621f3621e3621d3621c3621b3621a362193621836217362163621536214362133621236211362103620f3620e3630e362,
  0x133641236411364103640f3640e3640d3661c3631b3631a3631936318363173631636315363143631336312363113630f365103630e3650f3630d365,
  0x1936518365173651036716365153651436513365123650f367113650e367103650d3671c3641b3641a3641936418364173640e366163641536414364,
  0x153691836817368163680f36a153680e36a143670d36a0f36b0e36b13367123671136714366133661236611366103660f3660d36b1c3651b3651a365,
  0x1836b1236c1736b1136c1036c1636b1536b1436b1336b0d36e0f36c1236b0e36c1136b0d36c1c3691b3691a3691936918369173691036b1036a16369,
  0x2b36b2a36b2936b2836b2736b2636b143692536b2436b2336b2236b2136b2036b1f36b143681e36b1d36b1c36b1b36b1a36b1036e1936b0f36e0e36e,
  0xc36b0e36f0c3660c3640d37a1436e1336e1236e13370123701136e11370103700c3601836c1736c1636c1536c0f3701436d0e3701336c0d3702c36b,
  0x1b3721237a1137a1037a1a3720f37a1137b193721837117371163710e37a0f379153710e379153770d3791436f1336f1236f1136f1036f0c36e0f36f,
  0x1637716375153751c3741b3741a37419374183741737416374153741c3731b3731a3731937318373173731637315373203721f3721e3721d3721c372,
  0x1e3771d3771c3771b377143701c3761b3761a37619376183761a37717376163761837219377153761c3751b375183771a37517377193751837517375,
  0xc36a1937a0c3670c3651837a1737a1637a1537a1437a0c3631337a0c3620c35f0c3611c3781b3781a3781937818378173781637815378203771f377,
  0x1c37b1b37b1a37b143751937b1837b1737b143741637b143731537b1437b1337b143711237b103791c37a0c37a1b37a0c36f0c3791a37a0c3700c36c,
  0x1437e1037b1337e1237e1137e1037e0f37e0e37e0d37e0c37e0b37e0a387093871837d1737d1637d1537d1437c1337c14378143771237c1137c14376,
  0xc37f1837f1737f0d3890b3871637f1537f1437f1337f1237f1137f1037f0f37f0e37f0d37f0d3800b37f0a37f0937f1837e1737e1037c1637e1537e,
  0x163811538114381133811238111381113830c3810f3811437d0e3810d3811838017380163801538014380133801238011380103800f3800e3800c380,
  0x183841738410383163841538418383173831638315383143831338312383103811c3821b3821a38218382193821c3811b3811a381193811838117381,
  0x10386000000f3861c3850e3860d3860d3880b3860a3960a38609396203851f3851e3851d385203841f3841e3841d384143841c3841b3841a38419384,
  0x163871538714387133871238711387103870f3870e3870d3870a38e0938e1c3861b3861a386193861838617386163861538614386133861238611386,
  0x1a3880d38e0d38f0b38e1938818388173881638815388143881338812388113880e38c103880f3880e3880d38c1c3871b3871a387193871838717387,
  0x1538a1438a1338a1238a103891c3891b3891a3891938918389173891638915389143891338912389113890e38b1138a0f3890e3890d38b1c3881b388,
  0xf38e0e38e0a394093941038d0f38d0e38d0c3880d38d1038c0f38c0c3861438b1338b1238b0c3891138b1038b0f38b0c3871838a1738a1638a1038a,
  0x1b3901a3900e391193901838f1738f1638f1538f1438f1338f1238f0c38c1138f1038f0f38f0e38f0d3911438e1338e0c38d1238e1138e1038e0c38b,
  0x1e3911d3911c3911b3911a39119391183910f3930e393173911639115391143911339112391113910a395093950d3ba0b394113920f3910d3931c390,
  0xc38e2439223392223921039221392203921f3921e3921d3921c3921b3921a392193921839217392163921539214392133921239210391203911f391,
  0x11396103960f3960b3d40e3960a3d40d396093d40c3930c3910c38f0d3ca0b3960b3d20d3990b3950a3d2093d2143931339312393183901139310393,
  0x2439623396223962139620396103d20f3d20e3d20d3d20d3d31f3961e3961d3961c3961b3961a3961939619397173961639615396153981339612396,
  0x3c3963b3963a396393963839637396363963539634396333963239631396303962f3962e3962d3962c3962b3962a3962939628396273962639625396,
  0x27397263972539724397233972239721397203971f3971e3971d397183971c3971b3971a3971839644396433964239641396403963f3963e3963d396,
  0xf3990e3990d3bb2839827398263982539824398233982239821398203981f3981e3981d3981c3981b3981a398193981839817398163981539d2939a,
  0x263992539924399233992239921399203991f3991e3991d3991c3991b3991a399193991639d18399173991639915399153a313399123991139910399,
  0x3039b2f39b2e39b2d39b2c39b2b39b2a39b0e3bb2939b3439a3339a3239a3139a3039a2839a2f39a2e39a2d39a2c39a2b39a2a39a283972839927399,
  0x4739b4639b4539b4439b4339b4239b4139b4039b3f39b3e39b3d39b3c39b3b39b3a39b3939b3839b3739b3639b3539b3439b3339b3239b2839b3139b,
  0x3639c3539c3439c3339c3239c3139c3039c2f39c2e39c2d39c2c39c2b39c2a39c2839c2939c5039b4f39b4e39b4d39b4c39b4b39b4a39b4939b4839b,
  0x2a39d2939d2839d2739d2639d2539d2439d2339d2239d2139d2039d1f39d1e39d1d39d1c39d1b39d1a39d1939d1839d1639e1739d1539e3839c3739c,
  0x2539e2439e2339e2239e2139e2039e1f39e1e39e1d39e1d39f1b39e1a39e1939e1839e173a2163a21739e153a23039d2f39d2e39d2d39d2c39d2b39d,
  0x3c39e3b39e3a39e3939e3839e3739e3639e3539e3439e183a23339e3239e3139e3039e2f39e2e39e2d39e2c39e2b39e2a39e2939e2839e2739e2639e,
  0x2739f2639f2539f253a02339f2239f2139f2039f1f39f1c39f1e39f1c39e4839e4739e4639e4539e4439e4339e4239e4139e4039e3f39e3e39e3d39e,
  0x3f39f3e39f3d39f3c39f3b39f3a39f3939f3839f3739f3639f3539f3439f3339f3239f3139f3039f2f39f2e39f2d39f2c39f2b39f2a39f2939f2839f,
  0x323a0313a0303a02f3a02e3a02d3a02c3a02b3a02a3a0293a0283a0273a0243a0263a02439f4839f4739f4639f4539f4439f4339f4239f4139f4039f,
  0x153a6483a1473a1463a1453a1443a1433a13c3a1423a1413a1403a13f3a13e3a13d3a13c3a03b3a03a3a0393a0383a0373a0363a0353a0343a0333a0,
  0x193a3183a3173a3163a3153a5283a2273a2263a2253a2243a2233a2223a2213a2203a21f3a21e3a21d3a21c3a21b3a2183a61a3a2173a6163a6193a2,
  0x2f3a32e3a32d3a32c3a32b3a32a3a3293a3283a3273a3263a3253a3243a3233a3223a3213a3203a3193a61f3a31e3a31d3a31c3a3163a51b3a31a3a3,
  0x363a4353a4343a4333a4323a4313a4303a4403a33f3a33e3a33d3a33c3a33b3a33a3a3393a3383a3373a3363a3353a3343a3333a3323a3313a3303a3,
  0x293a5283a5273a5263a5253a5243a5233a5223a5213a5203a5173a81f3a51e3a51d3a5163a81c3a51b3a51a3a5193a5183a5173a5153a8383a4373a4,
  0x1b3a6173ad163ad1a3a6153ad3c3a53b3a53a3a5393a5383a5373a5363a5353a5343a5333a5323a5313a5303a52f3a52e3a52d3a52c3a52b3a52a3a5,
  0x313a6303a62f3a62e3a62d3a62c3a62b3a62a3a6293a6293ac273a6193ad263a6253a6243a6233a6223a6213a6203a61f3a61e3a61d3a61c3a6193b1,
  0x1f3a71e3a71d3a71b3ad1c3a71b3a71a3a7193a7183a7173a7163a7153a73c3a63b3a63a3a6393a6383a6373a6363a6353a61a3ad343a6333a6323a6,
  0x373a7363a7353a7343a7333a7323a7313a7303a72f3a72e3a72d3a72c3a72b3a72a3a7293a7283a7273a7263a7253a7243a7233a7223a7213a7203a7,
  0x263a8183b0253a8243a8233a8223a8213a8173b0203a81f3a81e3a8163b01d3a81c3a81b3a81a3a8193a8183a8153b03c3a73b3a73a3a7393a7383a7,
  0x3e3a93d3a93c3a83b3a83a3a8393a8383a8373a8363a8353a8343a8333a8323a8313a8303a82f3a82e3a82d3a82c3a82b3a82a3a8293a8293aa273a8,
  0x3d3aa3c3aa3b3aa3a3aa393aa383aa373aa363aa353aa343aa333aa323aa313aa303aa2a3ab2f3aa2e3aa2d3aa2c3aa2b3aa2a3aa293ab403a93f3a9,
  0x353ab343ab333ab323ab283aa313ab303ab2f3ab2e3ab2d3ab2c3ab283a82b3ab483aa473aa463aa453aa443aa433aa423aa413aa403aa3f3aa3e3aa,
  0x4b3ab4a3ab493ab483ab473ab463ab453ab443ab433ab423ab413ab403ab3f3ab3e3ab3d3ab3c3ab3b3ab283ab3c3a93a3ab393ab383ab373ab363ab,
  0x3b3ac3a3ac393ac383ac373ac363ac353ac343ac333ac323ac313ac303ac2f3ac2e3ac2d3ac2c3ac2b3ac2a3ac283a6503ab4f3ab4e3ab4d3ab4c3ab,
  0x193b4273ae263ae203ae253ae243ae233ae223ae213ae203ad1f3ad1e3ad183b41d3ad173b4163b41c3ad153b4403ac3f3ac3e3ac283ac3d3ac3c3ac,
  0x283af273af263af253af243af233af203af223af213af1b3b4343ae333ae323ae313ae303ae2f3ae2e3ae2d3ae2c3ae2b3ae2a3ae293ae1a3b4283ae,
  0x1e3b01d3b01c3b01b3b01a3b0193b014399383af373af363af353af343af333af323af313af303af1d3b52f3af2e3af2d3af2c3af2b3af2a3af293af,
  0x323b0313b0303b02f3b02e3b02d3b02c3b02b3b02a3b0293b0283b0143b0273b0143a8263b0253b0243b0233b0223b0143a5213b0203b01f3b0143a3,
  0x183b1253b1243b1233b1223b1213b1203b11f3b11e3b11d3b11c3b11b3b11a3b1183ad3c3b03b3b03a3b0393b0383b0373b0363b0353b0343b0333b0,
  0x3c3b23b3b2363b33a3b2393b2383b2373b2363b2353b2353b3333b1323b1313b1303b12f3b12e3b12d3b12c3b12b3b12a3b1293b1283b1273b1263b1,
  0x473b3463b3453b3443b3433b3423b3413b3403b33f3b3343b33e3b33d3b3343b23c3b33b3b33a3b3393b3383b3373b3343b1403b23f3b23e3b23d3b2,
  0x2c3b42b3b41b3b81a3b82a3b4193b8293b4283b4273b4263b4253b4243b4233b4223b4213b4203b41f3b4183b81e3b4173b8163b81d3b4153b8483b3,
  0x433b4423b4413b4403b43f3b43e3b43d3b43c3b43b3b43a3b4393b4383b4373b4363b41c3b8353b4343b4333b4323b4313b4303b42f3b42e3b42d3b4,
  0x313b5303b52f3b52e3b52d3b52c3b51e3b62b3b52a3b5293b5283b5273b5263b5253b5243b5233b5223b5213b5203b51f3b51e3b51d3b81d3b6443b4,
  0x263b6253b6243b6233b6223b6213b6203b61f3b61c3b4403b53f3b53e3b53d3b53c3b53b3b53a3b5393b5383b5373b5363b5353b5343b5333b5323b5,
  0x3b3b7343b73a3b7393b7383b7373b7363b7353b7343b6333b6323b6313b6303b62f3b61c3b62e3b61c3b52d3b62c3b62b3b62a3b6293b6283b6273b6,
  0x2b3b8143a62a3b8293b8283b8273b8263b8253b8243b8233b8223b8213b8203b8143a21f3b81439e1439d1e3b814396403b73f3b73e3b73d3b73c3b7,
  0xf3bb0c395103ba0f3ba0e3ba0c394383b9373b9363b9353b914398343b9333b92c3b9323b9313b9303b92f3b92e3b92d3b92c3b8143b8143b4143ad,
  0x1e3be1d3be1c3be1b3be1a3be193be183be173be163be153be143be133be123be113be143bd133bd123bd143a7113bd103bc0f3bc0e3bc0d3bc103bb,
  0x133c1123c1113c1183c0173c00c3bb0c399163c0153c00c3ba143c0133c0123c0113c0103bf0f3bf0e3bf0d3bf243be233be223be213be203be1f3be,
  0x133c4123c4113c4243c3233c3223c3213c3203c21f3c21e3c21d3c2103be1c3c1103bd1b3c11a3c1193c10c3bf183c10c3bc173c1163c1153c1143c1,
  0x1b3c61a3c6193c6183c6173c6163c6103c6153c6153c7133c6123c6113c61c3c51b3c51a3c5193c5183c5173c5103c4163c5153c5103c1103c0143c4,
  0x203c3163c8173c7163c7153c8143c52c3c62b3c61c3c22a3c6293c6283c6273c6263c6253c6243c6233c6223c6213c6203c61f3c61e3c61d3c61c3c6,
  0x223c8213c8203c81f3c81e3c81d3c81d3c91b3c81a3c8193c8173cd163cd183c8173c8153cd203c71f3c71e3c71d3c71c3c71b3c71a3c7193c7183c7,
  0xc3962c3c92b3c92a3c9293c9283c9273c91c3c9263c9253c9243c9233c9223c9213c9203c91f3c91e3c91c3c8283c8273c8263c8253c8243c8233c8,
  0x243ca233ca223ca213ca203ca1f3ca1e3ca1d3ca1c3ca1b3ca1a3ca0c3ca193ca183ca173ca163ca153ca153cb133ca123ca113ca103ca0f3ca0e3ca,
  0x3c3ca3b3ca3a3ca393ca383ca373ca363ca353ca343ca333ca323ca313ca303ca2f3ca2e3ca2d3ca2c3ca2b3ca2a3ca293ca283ca273ca263ca253ca,
  0x233cb223cb213cb203cb1f3cb1e3cb1d3cb1c3cb1b3cb1a3cb193cb183cb173cb163cb163cc153cc443ca433ca423ca413ca403ca3f3ca3e3ca3d3ca,
  0x173ce163ce153ce383cb373cb363cb353cb343cb333cb323cb313cb303cb2f3cb2e3cb2d3cb2c3cb2b3cb2a3cb293cb283cb273cb263cb253cb243cb,
  0x2e3cc2d3cc2c3cc2b3cc2a3cc293cc283cc273cc263cc253cc243cc233cc223cc213cc203cc1f3cc1e3cc1d3cc1c3cc1b3cc1a3cc193cc183cc173cc,
  0x1c3ce183d01b3ce1a3ce193ce183ce173d0163d0153d0203cd1f3cd1e3cd1d3cd1c3cd1b3cd183cf1a3cd173cf163cf193cd183cd153cf303cc2f3cc,
  0x193d0173d1163d1153d1203cf1f3cf1e3cf1d3cf1c3cf143cd1b3cf143c8143c71a3cf193cf143c6243ce233ce223ce213ce203ce1f3ce1e3ce1d3ce,
  0x2e3d02d3d02c3d02b3d02a3d0293d0283d0273d0263d0253d0243d0233d0223d0193d1213d0203d01f3d01e3d01d3d01c3d0183d1143cf1b3d01a3d0,
  0x1f3d11e3d1143ce1d3d11c3d11b3d11a3d1143cc143cb143ca3c3d03b3d03a3d0393d0383d0373d0363d0353d0343d0333d0323d0313d0303d02f3d0,
  0x1a3d2193d2183d2173d2163d2153d2143d2133d20b3d6123d2113d20a3d6093d6283d1273d1263d1253d1243d1143d1143d0233d1223d1213d1203d1,
  0x93d8103d70f3d70e3d70d3d71c3d31b3d31a3d3193d3183d3173d3163d3153d3143d3133d3123d3113d3103d30e3d50f3d30e3d30d3d51c3d21b3d2,
  0xe3d80d3d80c3de0c3d80c3d50b3de0b3d80c3d60a3de093de0c3d3103d50f3d50c3d2103d40f3d40e3d40c3dd0b3dd0d3d40a3dd0c3d4093dd0a3d8,
  0xe3de0d3de173d9163d9153d9143d9133d9123d9113d9103d90f3d90e3d90d3d90d3dc0b3d90a3d9093d9143d8133d8123d8113d80c3d7103d80f3d8,
  0x133dc123dc113dc103dc0f3dc0e3dc0c3dc0c3d91c3db1b3db1a3db193db143da183da173da163da153da183d9143de133de123de113de103de0f3de,
  0xa3e0093e00d3e80d3e30b3df0b3e70a3df093df0a3e7093e7143dd133dd123dd113dd103dd0f3dd0e3dd0d3dd093e6183dc173dc163dc153dc143dc,
  0xe3e70d3e70e3e20d3e2183e1173e1163e1153e10e3e6143e1133e1123e1183db113e10d3e60c3e6103e10b3e60f3e10a3e60e3e10d3e10d3e40b3e0,
  0x1c3e21b3e21a3e2193e2183e2173e20f3e4163e20e3e4153e2143e2133e2123e2113e2163e7103e2153e70f3e2143e7133e7123e7113e7103e70f3e7,
  0x1c3e31b3e31a3e3193e3183e3173e3163e3153e3143e3133e3123e3113e3103e30f3e30e3e30c3df243e2233e2223e2213e2203e21f3e21e3e21d3e2,
  0x163e4153e4143e4133e4123e4113e4103e40c3e02c3e32b3e32a3e3293e3283e3273e3263e3253e3243e3233e3223e3213e3203e31f3e31e3e31d3e3,
  0x123e6113e6103e60f3e6093f4183e5173e5163e5153e5143e5133e5123e5113e5103e50f3e50e3e50d3e51c3e41b3e41a3e4193e40c3e3183e4173e4,
  0xd3f40d4010e3e80b3f41c3e70a3f41b3e71a3e7193e7183e70c3e4173e71c3e61b3e61a3e60c3e2193e60c3e1183e6173e6163e6153e6143e6133e6,
  0x1d3e91c3e81b3e81a3e8193e8183e8173e8163e8153e8143e8133e8123e8113e80d3ec103e80c3e80b3ea0f3f40e3f40a3ea093ea0c3e70c3e50f3e8,
  0x173eb163eb2a3e9143ea293e9153eb133ea123ea113ea103ea0f3ea0e3ea0d3ea283e9273e9263e9253e9243e9233e9223e9213e9203e91f3e91e3e9,
  0x103ec0f3ec0e3ec0c3ec243eb233eb223eb213eb203eb1f3eb1e3eb1c3e91d3eb1c3eb0d3f31b3eb1a3eb0b3f1193eb183eb0a3f1093f12c3e92b3e9,
  0x183f1173f1163f1183ef153f1173ef143f1133f1123f1113f1113f20f3f10e3f10d3f1163ef153ef143ee133ee123ee113ee103ed0f3ed0e3ed0d3ed,
  0x133f20c40c103f2123f20b40c0c3f0103f10a40c0940c183f0173f0163f0153f0143f0133f0123f0113f0103f00f3f00c3ed0e3f00d3f0143eb0c3ea,
  0xd40c113f4103f409415183f3173f3163f3153f3143f3133f3143ef123f3113f3103f3103ee0f3f30e3f30e3f60d3f6183f2173f2163f2153f2143f2,
  0xd4171a3f40b415193f40a415183f4173f4163f4153f4153f51a40d1940d1840d1740d133f41640d123f41540d1340c1240c1140c1040c0f40c0e40c,
  0x2e3f42d3f42c3f42b3f42a3f4293f4283f4273f4263f4253f4253f7233f4223f4213f410415203f40f4150e4151f3f41e3f41d3f41c3f41b3f40d415,
  0x223f5213f5203f51f3f51e3f51d3f51c3f51b3f51a3f5193f5183f5173f5163f5153fb383f4373f4363f4353f4343f4333f4323f4313f4303f42f3f4,
  0xd3fe383f5373f5363f5353f5163fb343f5333f5323f5313f5303f52f3f52e3f52d3f52c3f52b3f52a3f5293f5283f5273f5263f5253f5253f8233f5,
  0x253f9233f6223f6213f6203f61f3f61e3f61d3f61c3f61b3f61a3f60f3fe193f6183f6173f6163f6153f6153fa133f6123f6113f6103f60f3f60e3fe,
  0x283f7273f7263f7243f4383f6373f6363f6353f6343f6333f6323f6313f6303f62f3f62e3f62d3f62c3f62b3f62a3f6293f6283f6273f6263f6253f6,
  0x3f3f73e3f73d3f73c3f73b3f73a3f7393f7383f7373f7363f7243f7353f7343f7333f7323f7313f7303f72f3f72e3f72d3f72c3f72b3f72a3f7293f7,
  0x2f3f82e3f82d3f82c3f82b3f82a3f8293f8283f8273f8263f8243f54c3f74b3f74a3f7493f7483f7473f7463f7453f7443f7433f7423f7413f7403f7,
  0x463f8453f8443f8433f8423f8413f8403f83f3f83e3f83d3f83c3f83b3f83a3f8393f8383f8373f8363f8243f8353f8343f8333f8323f8313f8303f8,
  0x243f9353f9343f9333f9323f9313f9303f92f3f92e3f92d3f92c3f92b3f92a3f9293f9283f9273f9263f9243f64c3f84b3f84a3f8493f8483f8473f8,
  0x153fd4c3f94b3f94a3f9493f9483f9473f9463f9453f9443f9433f9423f9413f9403f93f3f93e3f93d3f93c3f93b3f93a3f9393f9383f9373f9363f9,
  0x2c3fa2b3fa2a3fa293fa283fa273fa263fa253fa243fa233fa223fa213fa203fa1f3fa1e3fa1d3fa1c3fa1b3fa1a3fa193fa183fa173fa163fa163fd,
  0x2c3fb2b3fb2a3fb293fb283fb273fb263fb253fb243fb233fb223fb213fb203fb1f3fb1e3fb1d3fb1c3fb163fc1b3fb1a3fb193fb183fb173fb153fc,
  0x143fb1c3fc1b3fc1a3fc193fc183fc143f43c3fb3b3fb3a3fb393fb383fb373fb363fb353fb173fc343fb333fb323fb313fb303fb2f3fb2e3fb2d3fb,
  0x343fc333fc323fc313fc303fc2f3fc2e3fc2d3fc2c3fc2b3fc2a3fc293fc283fc273fc263fc253fc243fc233fc223fc213fc203fc1f3fc1e3fc1d3fc,
  0x213fd203fd1f3fd1e3fd1d3fd1c3fd1b3fd143fd1a3fd193fd183fd173fd143fa143f63c3fc3b3fc143fc3a3fc393fc383fc373fc363fc143f5353fc,
  0x393fd383fd373fd363fd353fd343fd333fd323fd313fd303fd2f3fd2e3fd2d3fd2c3fd2b3fd2a3fd293fd283fd273fd263fd253fd243fd233fd223fd,
  0x203fe1f3fe1e3fe1d3fe1c3fe1b3fe114020f4001a3fe193fe183fe173fe163fe153fe143fe133fe123fe113fe103fe0e4000d4003c3fd3b3fd3a3fd,
  0x383fe373fe363fe353fe343fe333fe323fe313fe303fe2f3fe2e3fe2d3fe2c3fe2b3fe2a3fe293fe293ff273fe263fe253fe243fe233fe223fe213fe,
  0x114000e4040d4043c3ff3b3ff3a3ff393ff383ff373ff363ff353ff343ff333ff323ff313ff303ff2f3ff283ff2e3ff2d3ff2c3ff2b3ff2a3ff283fe,
  0x114031440213402124021040014401134011240111401104010f40111404104040f4040e4070e4010d40718400174001640015400144001340012400,
  0x1a40419404184041740416404154041440413404124040e4090d4091c4031b4031a40319403184031740310403164031540314403134031240310402,
  0x194051840517405164051540514405134051240511405114060f4050e4051440a0d405204041340a1f4041e4041d4041240a1140a0f4091c4041b404,
  0x14407134071240711407104070c4010f4070c3f41c4061b4061a406194061840617406164061540614406134061240610406104051c4051b4051a405,
  0x2b4072a407294072840727407264072540724407234072240721407204071f4071e4071d4071c4071b4071a407194071940817407164070c40715407,
  0x184081e4081d4081c4081b4081a408184073c4073b4073a407394073840737407364073540734407334073240731407304072f4072e4072d4072c407,
  0x364083540834408334083240831408304082f4082e4082d4082c4082b4082a408294082840827408264082540824408234082240821408204081f408,
  0xc3f61e40a1d40a1c40a1b40a1a40a1940a1840a1740a1640a1540a104090c3f30c3f1404083f4083e4083d4083c4083b4083a408394083840837408,
  0xe40e0d40e0d40f0b40e0d4160a40e0940e0b4141c40d1440c0a414094140c4091b40d1440b0c4051340b1240b0c4041140b2040a1f40a0c4000c3fe,
  0x104140f4140e4140d4141340f1240f1140f1040f0f40f0e4100e40f0d4101840e1740e1640e1540e1040b1040a1440e1340e1240e1140e1040e0f40e,
  0x1f40f1e40f1d40f1c40f1b40f1a40f1940f1840f1440d1740f1b4141640f1a414194141841417414164141540f154141440f14414134141241411414,
  0x104120c40e1c4111b4111a4111941118410174101641015410144100f412134101241011410104100e4120f4100d4122440f2340f2240f2140f2040f,
  0x134150d42812415114150b4241c4140c4130a42409424184131741316413154130c412144131341312413114130c410104130f4130e4130d4130c40f,
  0xd426104190f41910418094210f4180e4190e41f0d419104170f4170e4170d41f1841114416134161241611416104160f4160e4180e4160d41814415,
  0x94230c4210e41c0b4210d41c0a4211642715427134190e4281442713427124271142712419104271141914426134261242611426104260f4260e426,
  0x104200f4201041c1441c1341c1241c0e4201141c0d4201841b1741b174271641b1541b1841a0c4231741a0b4230a4231641a1141d0f41c1541a14419,
  0x1541f1441f1341f1441b1241f1441a0c4171041d1141f1041f0f41f0c4151c41e1b41e1a41e1941e114201841d1741d1641d1541d1441d1341d1241d,
  0x83dd1c4201b4201a4201942018420174200c4190c418164201542014420134200c416124200c4141c41f1b41f0c41f1a41f1941f1841f1741f1641f,
  0xd42b083600f4290e4290d429184280c43117428164280b4311841e154280a431094310842214428134281242811428104280c4200f428184270c41c,
  0x1243111431114320f4310e4310d4310842308415194291842917429083f416429083e6083df1542914429134291242911429083d4083961042908386,
  0x1242a1142a1142b1042b1042a0f42a0e42a0f42b0e42b0d42a1d4311c4311b4311c4291a431194311843117431164311b429154311a4291443113431,
  0xe42c0d42c1c42b1b42b1a42b1942b1842b1742b1642b1542b1442b1342b0c4241242b1c42a1b42a1a42a1942a1842a1742a1642a1542a1442a1342a,
  0x1242d1142d114300f42d0e42d0d42d2042c1f42c1e42c1d42c1c42c1b42c1a42c1942c1842c1742c1642c1542c1442c1342c1242c1142c1042c0f42c,
  0x16430154301443013430124300c42d0c42c104301842f1742f1642f0c42b1542f1842e0c42a0c429000001742e1642e0c4280c4261542e1442d1342d,
  0x1443213432124321442f1442e244311042d234312243121431083d82043100000083941f4311e4310837e0835f1c4301b4301a430194301843017430,
  0x83de10432083d9083d6083d2083950838e083870837f0836109433204321f4321e4321d4321c4321b4321a432104311943218432174321643215432,
  0x17433164331543314433134331243311433104330f4330e4330d4330d434084330843108425084140840e0b4330840c083f1083ea083e7083e00a433,
  0x134341243411434104340f4340e4340c4332843327433264332543324433234332243321433204331f4331e4331d4331c4331b4331a4331943318433,
  0x1943918439174391643915439144381343812438104371043a0f43a0e43a0d43a0c43a0b43a0a43a0943a094420743a0643a0543a0c4341143514434,
  0x1b43c1a43c0f4401943c1843c1743c0e4401643c1543c1443c1343c1243c1143c1043b0f43b0d44020439104381f4391e4391d4391c4391b4391a439,
  0xf4660e4660d4660d4680b4660a4660946609472074660646605466144392743d2643d2543d2443d2343d2243d2143d2043d1f43d1e43d1d43d1d43e,
  0x1446613466124662943e2843e1043c2743e2643e2543e2443e2343e2243e2143e2043e1f43e1e43e1c43c2c43d2b43d2a43d2943d2843d1146610466,
  0x11440104400c4352443f2343f2243f2143f2043f1f43f1e43f1d43f2c43e2b43e2a43e0a467094670947707467064670546718466174661646615466,
  0xe4410d4410d4430b4410a4410a4441c43f094441c4401b4401a4400c440194400c43b184401c43e174400c43716440154401444013440124401c43d,
  0xc441104420f4420e4420d4420c4420b4420a4470a442094471c4411b4411a441194411844117441164411544114441134411244111441104410f441,
  0xd4450c4450944a1844417444164441544414444134441244411444104440f4440e4440c4430d4440c4440b4450a4450b44409445104430f4430e443,
  0x1544614446134461244611446104460f4460e4460d4460c4460b4460a446094461844517445164451544514445134451244511445104450f4450e445,
  0x294462844627446264462544624446234462244621446204461f4461e4461d4461c4461b4461a446194460d44a0c44a0b44a184460a44a1744616446,
  0xf4470e4470d4470b4490d4480a44900000094490b4473844637446364463544634446334463244631446304462f4462e4462d4462c4462b4462a446,
  0x27447264472544724447234472244721447204471f4471e4471d4471c4471b4471a44719447184471744716447154471444713447124471144710447,
  0x1a44819448184481744816448154480c44814448134481244811448104480f4480e4480c447304472f4472e4472d4472c4472b4472a4472944728447,
  0x9458104490f4490e4490c4570b4570d4490a4570c449094572844827448264482544824448234482244821448204481f4481e4481d4481c4481b448,
  0x1544c1444d1344c1244c1144c1044c0f44c0e44c0d44c0d44e0b44c0a44c0944c1044b0f44b0e44b0d44b0c44b0b44b0a44b0944b1044a0f44a0e44a,
  0x1944f1844f1744f1644f1544f1444f1344f1244f1144f0e4530d453104580f4581044e0e4580d4580d4590b4580f44e0a4580e44e1844c1744c1644c,
  0x1945118452174511645115451144511345112451114511c4501b4501a4501945018450174501645015450144501345012450114501c44f1b44f1a44f,
  0x194551c4541b4541a45419454184530c45317453164531545314453134531245311453104530f4530c44e0c44c1c4511b45110451104501a4511044f,
  0x18457174571645715457144571345712457114570d45c104570f4570c45c0b45c0e4570a45c0d4570945c204561f4561e4561d4561c4551b4551a455,
  0xc458144581345812458114580945b28457274572645725457244572345718455224571845421457204571f4571e4571d4571c4571b4571a45719457,
  0xa45b1645a1545a1445a1345a1245a1145a1045a0f45a0e45a0d45a1c4560c45a0b45a0a45a0945a14459134591245911459104590f4590e4590c459,
  0x1b45b1a45b1945b1845b1745b1645b1545b1445b1345b094601c45a1245b1b45a1145b1a45a1945a1045b0f45b1845a0e45b0d45b0d45d0b45b1745a,
  0xd4600d4610b4601245d0a4601145d1045d0f45d0e45f0e45d0c45b1445c1345c1245c0d45f1145c1045c0c45f0b45f0f45c0a45f0e45c0945f1c45b,
  0x1345f094631245f1145f0c4620b4621045f0a4620f45f094620c45e0b45e0a45e1446013460124600945e114601445d1345d104600f4600c45d0e460,
  0xe4640d4640c4631c4610c4611b4611a46119461184611746116461154611446113461124610b46311461104610f4610a4630e4610c460084451445f,
  0x843a194640845e0845b0845a184640845817464000000844c0844b164640844a084460844408441154640843514464134641246411464104640f464,
  0xc4650c4640e4650d46508462244640845f2346422464214640845c204641f4641e4641d4641c464084571b4641a4640844908447084630844208460,
  0xc5560b5560a556095560955c075560655605556000000f4670e4670d4670c4670b4671846517465164651546514465134651246511465104650f465,
  0x104680f4680e4680e4690d4691c4671b4671a467194671846717467164671546714467134671246711467104671255611556105560f5560e5560d556,
  0x1a468194681846817468164681546814468134681246811468095580955b07558065581c5561b5561a55605558185571755616556155561455613556,
  0x1046b1346c1246c1146c1446b1346b1246b1046f1146b0f46f1046a0f46a0e46a0d46a14469134691246911469104690f4690e46f0d46f1c4681b468,
  0x1b46e1a46e1946e1846e1746e1646e1546e1446e1346e1246e1146e1846d1746d1646d1546d1446d1346d1246d1146d1846c1746c1646c1546c1446c,
  0x1c4701b4700c46a1a4700c4691046e1046d194701846f1746f1646f1546f1046c1446f1346f0c4680c4661246f1146f2046e1f46e1e46e1d46e1c46e,
  0xe4740c47214472134721247211472104730f4720e4720d4720d4740b4720a4720a4760947624471234712247121471204701f4701e4700c46f1d470,
  0xf4760e4760d4760d47a0b4760b4800a480094801c4751b4751a47519475184741747416474154741447413474184701247411474104740f4740c474,
  0x194771847717477164771547714477134771247711477104770f477204710e4770d4770d4790b4770a4870a477094871447613476124761147611478,
  0x12479114790e47e104790f4790e4790d47e1c4781b4781a47819478184781747816478154781447813478104781847510476124781c4771b4771a477,
  0x1947a1847a1747a1647a1547a1447a1347a1247a1147a0e47b1047a0f47a0e47a0d47b1c4791b4791a47919479184791747916479154791447913479,
  0x2047c1f47c1e47c1d47c1c47c1b47c0f47d1a47c1947c1847b1747b1647b1547b1447b1347b1247b0e47d1147b1047b0f47b0d47d1c47a1b47a1a47a,
  0xd4830b4810a481094811047f0c47b0f47f0e47f0c4790d47f1047e0f47e0c4771447d1347d0c47a1247d1147d1047d0c4762447c2347c2247c2147c,
  0xe4820d4820d4940c4940b4940a4940949418480174801648015480144800c47e1348012480114801847c104800f4800c47f0e4800d4800c4800c47d,
  0x15483144830e48b134831248311483104830f4830d48b1c4820e4831b4821a482194821848217482164821548215484134821248211482104820f482,
  0x14486134861248611486104860f4860e4860d486204851f485144841e4851d4851c4851b4851a4851848419485174841648414482184831748316483,
  0x194871848717487164871548714487134871248711487104870f4870e4870b4930d4870a4931048b094930d48e0f48b0b48718486174861648615486,
  0x2f4872e4872d4872c4872b4872a4872948728487274872648725487254881848500000234872248721487204871f4871e4871d4871c4871b4871a487,
  0x47487464874548744487434874248741487404873f4873e4873d4873c4873b4873a48739487384873748736487354873448733487324873148730487,
  0x3248831488314892f4882e4882d4882c4882648a2b4882a488294882848827488264882548a504874f4874e4874d4874c4874b4874a4874948748487,
  0x4a488494884848847488464884548844488434884248841488404883f4883e4883d4883c4883b4883a48839488384883748836488354883448833488,
  0x4548944489434894248941489404893f4893e4893d4893c489304893b4893a4893948938489374893648935489344893348932489304884c4884b488,
  0x3848a3748a3648a3548a3448a3348a3248a3148a3048a2f48a2e48a2448a2d48a244882c48a2b48a2a48a2948a2848a2748a24487484894748946489,
  0x5048a4f48a4e48a4d48a4c48a4b48a4a48a4948a4848a4748a4648a4548a4448a4348a4248a4148a4048a3f48a3e48a3d48a3c48a3b48a3a48a3948a,
  0xe48c0d48c1c48b1b48b1a48b1948b1848b1748b1648b0e4911548b1448b1348b1248b1148b0d4915848a5748a5648a5548a5448a5348a5248a5148a,
  0x1848d0f4911748d1648d1548d1048d1448d1348d1248d1048c1c48c1b48c1a48c1948c1848c1748c1648c1548c1448c1348c1248c1148c1148d0f48c,
  0x2048e1f48e1e48e1d48e1d48f1b48e1a48e124911948e114911848e0e4901748e1648e1548e1448e1348e1248e1148e1048e0f48e0e48e104910d490,
  0x3848e3748e3648e3548e3448e3348e3248e3148e3048e2f48e2e48e2d48e2c48e2b48e2a48e2948e2848e2748e2648e2548e2448e2348e2248e2148e,
  0x5048e4f48e4e48e4d48e4c48e4b48e4a48e4948e4848e4748e4648e4548e4448e4348e4248e4148e4048e3f48e3e48e3d48e3c48e3b48e3a48e3948e,
  0x2f48f2e48f2d48f2c48f2b48f2a48f2948f2848f2748f2648f2548f2448f2348f2248f1c48f2148f2048f1f48f1e48f1c48e5448e5348e5248e5148e,
  0x1849017490164901549014490134901249011490104900f4900c4873c48f3b48f3a48f3948f3848f3748f3648f3548f3448f3348f3248f3148f3048f,
  0x1e4921d4921c4911b4911a49119491184910c48317491164911549114491134910c481204901f4901e4901d4900c4901c4901b4901a4900c48e19490,
  0xe4960d496104950f495104940f4940e4940e4950d4950d49c0b4950a49509495104930f4930e4930c4a80b4a80d4930a4a80c493094a8204921f492,
  0xc4910e49c1549918498174980c48c164980c48b15498144971349712497114970f49b0e49b0d49b0d49d0b49b0a49b0949b0c486104960f4960c482,
  0x1449a1349a1249a1149a2849927499264992549924499234992249921499204991f4991e4991d4991c4991b4991c4921a49919499184991749916499,
  0xc49b144990f49e144980e49e0d49e1049d0f49d0e49d1849c1749c1649c1549c1049a1449c104971349c1249c1149c1049c0f49c0c4951049b094a1,
  0x154a1144a1134a1124a1114a1094a4144a0134a0124a0114a01449f0c49d1349f0c4961249f104a10f4a10e4a10d4a10d4a30b4a10a4a11149f1049e,
  0xd4a50c4a40b4a40a4a40f4a30c4a1184a2174a2164a2154a2144a20e4a3134a2124a2114a2104a20f4a20e4a20d4a2184a1174a1164a10c49e0c49c,
  0xd4a8104a70f4a70e4a70d4a7144a6134a6094aa104a5184a3174a3164a3154a3144a3134a3124a31049f114a3104a3104a0124a6114a60f4a50e4a5,
  0xf4aa0e4aa0d4aa0d4ac0b4aa0a4aa0c4a3104a90f4a90e4a90d4a90c4a9094c00b4a90a4a9094a9144a8134a8124a8114a8104a80c4a20f4a80e4a8,
  0xf4ab0e4ab0d4ab184aa174aa164aa154aa144aa0d4c00d4c1094af0b4c0144a90a4c00c4a7104a6134a90c4a5124a9114a9134aa124aa114aa104aa,
  0x124af114af104af0f4af0e4af0d4af0d4b80b4af0a4af124ac114ac104ac0f4ac0d4ad184ab174ab164ab154ab144ab0e4ac134ab124ab114ab104ab,
  0x1d4af1c4af1b4af0a4bf1a4af194af194b1174af094bf164af154af114b30f4ae0e4ae0d4ae0e4b9104ad0f4ad0e4ad0d4b9144ac144af134ac134af,
  0x114bf104bf0f4bf0e4bf0d4bf0c4bf0b4bf114b9104b92b4af2a4af0f4b9294af284af274af264af254af244af234af224af214af204af1f4af1e4af,
  0x224b0214b0204b01f4b01e4b01d4b01c4b01b4b01a4b0194b0194b2174b0164b0154b0144b0134b0124b3124b0114b00e4c02c4af144bf134bf124bf,
  0x264b1254b1244b1234b1224b1214b1204b11f4b11e4b11d4b11c4b11b4b11a4b1184af2c4b02b4b02a4b0294b0284b0274b0264b0254b0244b0234b0,
  0x3d4b13c4b13b4b13a4b1394b1384b1374b1364b1354b1344b1334b1324b1314b1304b12f4b12e4b12d4b12c4b12b4b12a4b1184b1294b1284b1274b1,
  0x2c4b22b4b22a4b2184b2294b2284b2274b2264b2254b2244b2234b2224b2214b2204b21f4b21e4b21d4b21c4b21b4b21a4b2184b0404b13f4b13e4b1,
  0x154b4144b3134b3114b6404b23f4b23e4b23d4b23c4b23b4b23a4b2394b2384b2374b2364b2354b2344b2334b2324b2314b2304b22f4b22e4b22d4b2,
  0x104ae284b5274b5264b5254b5244b5234b5224b5214b5204b51f4b51e4b51d4b51c4b51b4b51a4b5194b5184b5174b5164b5154b5184b4174b4164b4,
  0xe4ba0c4ba0d4ba184b9174b9164b9154b9144b90c4ad0c4b8134b9124b90c4aa104b80f4b80e4b80c4af184b7174b7164b7154b7144b6134b6124b6,
  0xc4ae0c4ac1c4bd1b4bd0c4ab104b01a4bd194bd184bc174bc164bc154bc144bc134bc124bc114bc104bb144b50f4bb144b40e4bb0d4bb104ba0f4ba,
  0x1b4c01a4c0194c00a4c3184c0174c0164c0154c0094c30c4bb0c4b9144c0134c0144b7124c0114c0104b6104c0104b30f4c0144be134be124be114be,
  0x114c3104c30f4c30e4c30d4c30d4c50b4c3144c1134c1104bc124c1104be114c1104c1184bd0f4c1095190e4c10d4c2204c01f4c01e4c01d4c01c4c0,
  0x224c1214c1204c10e5191f4c11e4c11d4c11c4c11b4c11a4c1194c1184c10d5190c519174c10b519164c10a5190e4c40d4c4154c1144c3134c3124c3,
  0x394c1384c1374c1364c1354c1344c1334c1324c1314c1304c12f4c12e4c12d4c12c4c12b4c12a4c1294c1284c1274c1264c1254c1244c10e4c2234c1,
  0xc4c6114d70f4c50e4c50c4c3114c9144c2134c2124c2114c2104c20f4c20f4c4444c1434c1424c1414c1404c13f4c13e4c13d4c13c4c13b4c13a4c1,
  0x244c7234c7224c7214c7204c71f4c71e4c71d4c71c4c71b4c70a5041a4c7194c7184c7174c709504164c7154c7154c8134c70c4c0124c9124c7114c7,
  0xc4c117505165052f4c715505135041250411504105040f5040e5040d5040d5080b5042e4c72d4c72c4c72b4c72a4c7294c7284c7274c7264c7254c7,
  0x234c8224c8214c8204c81f4c81e4c81d4c81c4c81b4c8144c81a4c8194c8184c8174c8164c8144c7344c7334c70c4c4324c7314c7304c70c4c218505,
  0x224c9214c9204c91f4c91e4c91d4c91c4c91b4c91a4c9134ca124ca194c9184c9174c9164c9154c9144c9134c9114ca284c8274c8264c8254c8244c8,
  0x3a4c9394c9384c9374c9364c9354c9344c9334c9324c9314c9304c92f4c92e4c92d4c92c4c92b4c92a4c9294c9284c9274c9264c9254c9244c9234c9,
  0x524c9514c9504c94f4c94e4c94d4c94c4c94b4c94a4c9494c9484c9474c9464c9454c9444c9434c9424c9414c9404c93f4c93e4c93d4c93c4c93b4c9,
  0x254ca244ca234ca224ca214ca204ca1f4ca1e4ca1d4ca1c4ca1b4ca144ce134ce124ce1a4ca194ca184ca174ca164ca154ca154cb114ce544c9534c9,
  0x234cb224cb214cb204cb1f4cb1e4cb1d4cb1c4cb1b4cb1a4cb194cb164cd184cb00000174cb164cb154cd2c4ca2b4ca2a4ca294ca284ca274ca264ca,
  0x184cd174cd144ca384cc374cc364cc354cc344cc334cc324cc314cc304cc2f4cc2e4cc2d4cc2c4cc2b4cc2a4cc294cc284cc274cc264cc254cc244cb,
  0x184ce174ce164ce154ce114d5284cd274cd264cd254cd244cd234cd224cd214cd204cd144cd1f4cd1e4cd1d4cd1c4cd1b4cd1a4cd144cb244cc194cd,
  0x2d4d02b4ce2a4ce294ce284ce274ce264ce254ce244ce234ce224ce214ce204ce1f4ce1e4ce1d4ce154d51c4ce144d5134d5124d51b4ce1a4ce194ce,
  0x304d02f4d02d4d1404cf3f4cf3e4cf3d4cf3c4cf3b4cf3a4cf394cf384cf374cf364cf2e4d0354cf344cf334cf324cf314cf304cf2f4cf2e4cf2d4cf,
  0x464d0454d0444d0434d0424d0414d0404d03f4d03e4d03d4d03c4d03b4d03a4d0394d0384d02f4d12e4d1374d0364d0354d0344d0334d0324d0314d0,
  0x394d1304d22f4d22e4d2384d1374d1364d1354d1344d1334d1324d1314d1304d12d4d2504d04f4d04e4d04d4d04c4d04b4d04a4d0494d0484d0474d0,
  0x384d2374d2364d2354d2344d2334d2324d2314d22d4d4484d1474d1464d1454d1444d1434d1424d1414d1404d13f4d13e4d13d4d13c4d13b4d13a4d1,
  0x3b4d33a4d3394d3384d3374d3364d3354d3344d3324d4334d3324d3314d3304d32f4d32e4d3314d42d4d33c4d23b4d23a4d2304d42f4d42e4d4394d2,
  0x534d3524d3514d3504d34f4d34e4d34d4d34c4d34b4d34a4d3494d3484d3474d3464d3454d3444d3434d3424d3414d3404d33f4d33e4d33d4d33c4d3,
  0x184d5174d5164d5114dd404d42c4d23f4d43e4d43d4d43c4d42c4d12c4d02c4cf3b4d43a4d4394d4384d4374d4364d4354d4344d4334d42c4ce544d3,
  0x294d5284d5274d5264d5254d5244d5234d5224d5214d5214d61f4d51e4d51d4d51c4d5164dd154dd1b4d5144dd134dd124dd1a4d52c4d42c4d3194d5,
  0x204d5404d53f4d53e4d53d4d53c4d53b4d53a4d5394d5384d5374d5364d5354d5344d5334d5324d5314d5304d52f4d52e4d52d4d52c4d52b4d52a4d5,
  0x144d7134d7124d7114e8344d6334d6324d6314d6304d62f4d62e4d62d4d62c4d62b4d62a4d6294d6284d6274d6264d6254d6244d6234d6224d6204d6,
  0x1d4db1b4da1a4da194da1c4d91b4d91a4d9184d7244d8234d8224d8214d8204d81f4d81e4d81d4d81c4d81b4d81a4d8194d8194d9174d7164d7154d7,
  0x124e61c4dd1b4dd1a4dd194dd124e8194e0174dd114e6204dc1f4dc1c4dc1c4db1c4da204db1f4db1e4db1e4dc1d4dc204da1f4da184d91e4da1d4da,
  0x2e4dd2d4dd2c4dd2b4dd2a4dd294dd284dd274dd264dd254dd244dd234dd224dd214dd184d8174e6204dd1f4dd1e4dd164e6154e61d4dd144e6134e6,
  0x454de444de434de424de414de414df3f4dd3e4dd3d4dd3c4dd3b4dd3a4dd394dd384dd374dd364dd354dd344dd334dd324dd184da314dd304dd2f4dd,
  0x4f4df4e4df4d4df4c4df4b4df404df4a4df494df404de484df474df464df454df444df434df404dd4c4de4b4de4a4de494de484de474de424df464de,
  0x294e1224e2284e1274e1264e1184e0254e1244e1234e1224e1214e1214e21f4e01e4e01d4e01c4e01b4e01a4e0184dd544df534df524df514df504df,
  0x234e32c4e2224e32b4e22a4e2294e2284e2274e2264e2254e2244e2234e2214e3344e1334e1324e1314e1304e12f4e12e4e12d4e12c4e12b4e12a4e1,
  0x2a4e3294e3284e3274e3264e3254e3244e3214e53c4e23b4e23a4e2394e2384e2374e2364e2354e2344e2334e2324e2314e2304e22f4e22e4e22d4e2,
  0x2e4e42d4e42c4e42b4e42a4e4294e4284e4254e5274e4264e4254e4244e4234e4224e4244e5214e4304e32f4e32e4e3234e52d4e3224e52c4e32b4e3,
  0x464e4454e4444e4434e4424e4414e4404e43f4e43e4e43d4e43c4e43b4e43a4e4394e4384e4374e4364e4354e4344e4334e4324e4314e4304e42f4e4,
  0x194e6184e6114ec344e5204e3334e5324e5314e5304e5204e22f4e5204e12e4e52d4e52c4e52b4e52a4e5294e5284e5274e5264e5204e0484e4474e4,
  0x294e7274e6264e6254e6244e6234e6224e6184ec214e6174ec204e61f4e61e4e6164ec154ec1d4e6144ec134ec124ec1c4e6204e5204e41b4e61a4e6,
  0x404e63f4e63e4e63d4e63c4e63b4e63a4e6394e6384e6374e6364e6354e6344e6334e6324e6314e6304e62f4e62e4e62d4e62c4e62b4e62a4e6294e6,
  0x584e6574e6564e6554e6544e6534e6524e6514e6504e64f4e64e4e64d4e64c4e64b4e64a4e6494e6484e6474e6464e6454e6444e6434e6424e6414e6,
  0x374e7364e7354e7344e7334e7324e7314e7304e72f4e72e4e7284e72d4e72c4e72b4e72a4e7284e6604e65f4e65e4e65d4e65c4e65b4e65a4e6594e6,
  0x184e8174e8164e8154e8144e8134e8104c5484e7474e7464e7454e7444e7434e7424e7414e7404e73f4e73e4e73d4e73c4e73b4e73a4e7394e7384e7,
  0x1d4ec1c4ec1b4ec1a4ec114ef194ec204eb1f4eb1c4eb1c4ea1c4e9204ea1f4ea1e4ea1e4eb1d4eb204e91f4e91e4e91d4e91d4ea1b4e91a4e9194e9,
  0x2b4ec2a4ec294ec104e8284ec274ec264ec194ef104d7184ef254ec174ef244ec234ec224ec164ef154ef214ec154f0134ef124ef204ec1f4ec1e4ec,
  0x414ed404ed3f4ed3e4ed3d4ed3c4ed3b4ed3a4ed394ed304ed384ed374ed364ed184e9354ed344ed334ed324ed314ed304ec2f4ec2e4ec2d4ec2c4ec,
  0x444ee434ee424ee414ee404ee3f4ee3e4ee3d4ee3c4ee3b4ee3a4ee394ee384ee374ee364ee354ee344ee334ee324ee304ee314ee444ed434ed424ed,
  0x1c4ef1b4ef1a4ef114f3584ee574ee564ee554ee544ee534ee524ee514ee504ee4f4ee4e4ee4d4ee4c4ee4b4ee4a4ee494ee484ee474ee464ee454ee,
  0x2b4ef2a4ef294ef284ef1a4f3274ef194f3264ef184f3254ef174f3244ef234ef224ef164f3154f3214ef154f7134f3124f3204ef1f4ef1e4ef1d4ef,
  0x434ef424ef414ef404ef3f4ef3e4ef3d4ef3c4ef3b4ef3a4ef394ef384ef374ef364ef354ef344ef334ef324ef314ef304ef2f4ef2e4ef2d4ef2c4ef,
  0x264f0254f0244f0234f0224f0214f0204f01f4f01e4f01d4f01c4f01b4f01a4f0194f0144f0184f0174f0164f0144ef484ef474ef464ef454ef444ef,
  0x3e4f03d4f03c4f03b4f03a4f0394f0384f0374f0364f0354f0344f0334f0324f0314f0304f02f4f02e4f02d4f02c4f02b4f02a4f0294f0284f0274f0,
  0x4a4f2494f2484f2474f2444f0504f14f4f14e4f14d4f14c4f14b4f1464f24a4f1494f1484f1474f1464f1454f1454f2434f0424f0414f0404f03f4f0,
  0x214f3204f31f4f31e4f31d4f31c4f31b4f3114ff584f2574f2564f2554f2544f2534f2524f2514f2504f24f4f2444f24e4f24d4f2444f14c4f24b4f2,
  0x2f4f32e4f32d4f32c4f32b4f32a4f3294f31b4ff1a4ff284f3194ff274f3184ff264f3174ff254f3244f3234f3164ff154ff224f3144ff134ff124ff,
  0x474f4464f4454f4444f4434f4424f4414f4404f33f4f33e4f33d4f33c4f33b4f33a4f3394f3384f3374f3364f3354f3344f3334f3324f3314f3314f5,
  0x3a4f5394f5384f5374f5364f5354f5344f5334f5324f5304f3544f4534f4524f4514f4504f44f4f44e4f44d4f44c4f44b4f44a4f4404f4494f4484f4,
  0x514f6504f64f4f64e4f64d4f64c4f64b4f64a4f6494f6484f5474f5464f5454f5444f5434f5424f5414f5404f53f4f5304f53e4f53d4f53c4f53b4f5,
  0x1f4f71e4f71d4f71c4f71b4f71a4f7194f7144f7194f9174f7164f7144f35c4f65b4f65a4f6594f6584f6574f6564f6554f6544f6534f6524f6484f6,
  0x364f8354f8344f8334f8324f8284f8314f8304f82f4f82e4f82d4f82c4f82b4f82a4f8294f8284f7274f7264f7254f7244f7234f7224f7214f7204f7,
  0x294f9284f9274f9264f9254f9244f9234f9224f9214f9204f91f4f91e4f91d4f91c4f91b4f91a4f91a4fd194fd3c4f83b4f83a4f8394f8384f8374f8,
  0x404fa3f4fa3e4fa3d4fa3c4fa3b4fa3a4fa324fc394fa384fa374fa364fa354fa344fa334fa324fa314fa314fc2f4f92e4f92d4f92c4f92b4f92a4f9,
  0x434fb424fb414fb404fb3f4fb3e4fb3d4fb3c4fb3b4fb3a4fb394fb384fb374fb364fb354fb344fb334fb334fc324fb314fb444fa434fa424fa414fa,
  0x354fc344fc304f9584fb574fb564fb554fb544fb534fb524fb514fb504fb4f4fb4e4fb4d4fb4c4fb4b4fb4a4fb494fb484fb474fb464fb454fb444fb,
  0x1e4fd304fc304fb1d4fd1c4fd1b4fd184f9184f7444fc434fc424fc414fc404fc3f4fc3e4fc3d4fc304fa3c4fc3b4fc3a4fc394fc384fc374fc364fc,
  0x354fe344fe334fe324fe314fe304fd2f4fd2e4fd2d4fd2c4fd2b4fd2a4fd294fd284fd274fd264fd254fd184fd244fd234fd224fd214fd204fd1f4fd,
  0x224ff214ff204ff1f4ff1e4ff1d4ff1c4ff11503444fe434fe424fe414fe404fe3f4fe3e4fe3d4fe3c4fe3b4fe3a4fe304fe394fe384fe374fe364fe,
  0x2e5002d5002c5002b5002a500265011c5031b5031a5032950019503285001850327500175032550126500255001650315503234ff145031350312503,
  0x315013050127502265022f5012e5012d5012c5012b5012a501295012850127501255023850037500365003550034500335003250031500305002f500,
  0x244ff4850147501465014550144501435014250141501405013f5013e5013d5013c5013b5013a5013950138501375013650135501345013350132501,
  0x205031f5031e5031d503104c438502375023650235502345023350232502315022450124500305022f5022e5022d5022c5022b5022a5022950228502,
  0x2b503105032a503104ff104f3104ef29503104ec28503104e627503104dd265032550324503104d5104ce23503104ca104c9104c7225032150324502,
  0x1c5050a50e1b5051a50519505145040950e3c5033b5033a503395033850337503365033550334503335033250331503305032f5032e5032d5032c503,
  0xf50e0e50e0d50e0d50f0b50e1b5061a50619506185061750616506155062850527505265052550524505235052250521505205051f5051e5051d505,
  0x1550814508135081250811508105080f5080e5080d509185071750716507155071850e1750e145051650e1550e1c5061450e1350e1250e1150e1050e,
  0x1750a1650a1550a1450a1350a1250a1150a105090f5090c504205081f5081e5081d5081c5081b5081a508195080e5091850814507145061750816508,
  0xd5132050d1f50d1e50d1d50d1c50d1b50d1a50d1950d1850c1750c1650c1550c1450b1350b1250b0c5091150b1c50a0c5081b50a1a50a1950a1850a,
  0xb5121c5111b5111a511195111c5101b5101a510195101850f1750f0a5121650f1050b1550f1050a095121450f1350f1250f1150f1050f0f50f0e50f,
  0x205121f5121e5121d5121c5121b5121a51219512185121751216512155121451213512125121850d0e51311512105120f5120e5121450c0d5120c512,
  0x11513105130f5130d514305122f5122e5122d5122c5120b5162b5122a5122951228512275120a5162651218510255122451209516235122251221512,
  0x195131b517185131a51719517175131851717517165131651715517145171351712517115170f5160e5160d5160d51b1551314513185111351312513,
  0x2f5132e5132d5132c5132b5132a51329513285132751326513255130f51424513235132251321513205131f5131e5130e5141d5131c5131b5131a513,
  0x1251911519105190f519145181351812518115181c5171c5151b5151a515185141951517514165141551414514135141251411514105140c50e30513,
  0x1751b1651b1551b1451b1351b1251b0c5130b5321151b1051b0f51b0e51d105160a5320c50f0e51b0d51d1451a095321351a1251a1151a1451913519,
  0x1e51b0e5330d5331d51b0c5330b5331d51c0a53314532135321253211532105320f5320e5320d5320d5351b51b185150c514095331a51b1951b1851b,
  0x1f51c1e51c1c51b165332851b1051a2751b155332651b2551b2451b2351b2251b2151b2051b1f51b145331353310518125331051711533105330f533,
  0x3651c3551c3451c3351c3251c3151c3051c2f51c2e51c2d51c2c51c2b51c2a51c2951c2851c2751c2651c2551c2451c2351c2251c2151c2051c1c51c,
  0xd5221c51f1b51f1a51f1951f1851e1751e1651e1551e1451d1351d0f5200e5201251d1151d1051d0f51d0d5203c51c3b51c3a51c3951c3851c3751c,
  0x17521165211552114521135211252111521105210f5210e5210d521115221852017520105221652015520145200f5220e52213520125201152010520,
  0x19523205221f5221e5221d5221c5221b5221a522125241152419522185221152a17522165221451e0f5240e524155221452213522125220d52418521,
  0xc5220c52114525165260c5201552618525175250c51d0c51b165251552514524135240c516205231f5231e5231d5231c5231b523185231a5231851f,
  0x295292852827528265282552824528235282252821528205271f5271e5271d5271c5271b5271a527195271852717527165270c524155271852617526,
  0x1052a105242052b1f52b145271e52b1d52b1c52b1b52b1a52b1952b1852a1752a1652a1552a1452a1352a1252a145261252c1152c2c5292b5292a529,
  0x1f52f1e52f1d52f1c52f1b52f1a52f1952f1852f1752f1652f1552f1052c1452d1852e1752e205281652e1552e1852d1752d1652d1552d1452c1352c,
  0x1c5330a53d1b5331a5331452e195330953d18534175332c5312b5312a53129531285302753026530255301852b24530285292353022530215302052f,
  0x1253f1153f0f53e0e53e0d53e205301a5350953c1953518536175351653515535145351452f135351253511535105350b53d0f5350e5370e5350d537,
  0xc535115370c532135400c53c105370b53c285310a53c12540115401c53f0f5371b53f1a53f1c5351953f1853f1b5351753f1653f1553f1453f1353f,
  0x1c5381b5381a5381953818538175381653815538145381353812538115381053816540155400c5380f5380e538145400d538145370c5371353712537,
  0x34538335383253831538305382f5382e5382d5382c5382b5382a538295382953a27538265382553824538235382253821538205381f5381e5381d538,
  0x3353a3253a3153a3053a2f53a2853a2e53a2d53a2c53a2b53a2a53a28538405393f5393e5393d5393c5393b5393a5393953938538375383653835538,
  0x95410c53d38539185401053e17540084a84453b4353b4253b4153b4053b3f53b3e53b3d53b3c53a3b53a3a53a3953a3853a3753a3653a3553a3453a,
  0xb5510e54208493084870d542084770a551084670d5430b5420a542095510954214541135411254111541105410f5410e5410d5410d5440b5410a541,
  0x165511555115553135511255111551105510f5510e5510d5511053f0853c0853308519155421454213542084c012542115420d5523c53b105420f542,
  0x1254311543105430f5430e5430c5421c5421b5421a542195421854217542105520f5520e5521c5511b551165421a551195511054018551175510c53e,
  0x1a544195441854417544165441554414544135441254411544105440f5440e5440d5461c5431b5431a54319543185431754316543155431454313543,
  0x105460d5481c5451b5451a5450f54619545185450e5461754516545155451454500000135451254511545105450f5450e5450d5450c5431c5441b544,
  0x195481854817548165481554814548135481254811548105470e54a105480f5480e5480d54a145470000013547125471154714546135461254611546,
  0x1d5491254a1c5491154a1b5491a5491054a19549185490f54a17549165491554914549135491254911549105490f5490e5490d5491c5481b5481a548,
  0x1554d1454c1354c1254c1154c1454b1354b1254b1154b1c54a1b54a1a54a1954a1854a1754a1654a0e5501554a1454a1354a0d550205491f5491e549,
  0x1254e1154e1054e1054c135500f54e0e54e125500d54e115502054d1f54d105501e54d1d54d0f5501c54d1b54d1054b1a54d1954d1854d1754d1654d,
  0x1d54f1c54f1b54f1a54f1954f1854f1754f1654f1554f1454f1354f1254f1154f1c54e1b54e1a54e1954e1854e1754e1654e1554e1454e145501354e,
  0x185531955417553165531455118552175521655215552145521355212552115520d55518550175500c548165501454d155500c5442054f1f54f1e54f,
  0x1255511555105550c5520c54a0f555085420c5490e5550c54608512205540c5451f5541e5540c541084af1d554145531c5541b5540849b1a5541054f,
  0x8532085160850e1755508504084c316555084bf084aa15555084a9084a4084a108495084940848108480084760847208466145550c5500c54e13555,
  0xa5b0095b0095b9075b0065b0055b00c5550f5580e5580d5580d55a0b5580a558195561c5551b5551a55519555185550c5511855408551085410853d,
  0xf55a0e55a1c5581b5581a55819558185591755816558155581455813558125581155810558165b3135b1125b1155b30f5b00e5b00d5b00c5b00b5b0,
  0xa55b095621455a1355a1255a1155a0c55a115b4245b3235b3225b3215b3205b31f5b31e5b31d5b31c5b31b5b31a5b3195b3185b3175b30c5581055a,
  0x1455d1355c1255c1155c1055c0f55c0e55c0d55c0d5600b55c0a5630a55c095631455b1355b1255b1155b1055b0f55b0e55b0d55b0d5610b55b0a562,
  0xf5620e5620d5620d5640b5690a5690b56209569105610f5610e5610c55b105600f5600e5600c55c1855e1755e1655e1555e1855c1755c1655c1555c,
  0x135631256311563105630f5630e5630d5630c5630b5680a5680b56309568185621756216562155621456213562125620c561115621455f105620c560,
  0x1a564195641856417564165641556414564135641256411564105640f5640e5640e5650d5651c5631b5631a563195631856317563165631556314563,
  0xf5670e5670d5670c5671456613566125660c56611566105660f5660e5660d5660c56514565135651256511565105650f5650c5640c5621c5641b564,
  0x1556814568135681256811568105680f5680e5680d5680c5680956b1c5671b5671a56719567185671756716567155671456713567125671156710567,
  0x956d18569175690c56b0b56b165690a56b1556914569135691256911569105690f5690e5690d5690d56c0b56a0a56a0c5690956a185681756816568,
  0xf56c0e56c0c56a1056b0f56b0e56b0d56b0957b1856a1756a1656a1556a1456a1356a1256a1156a1056a0f56a0e56a0d56d0d5700b56d0a56d0d56a,
  0xd57d0b57b0d56e0a57b0c56e0b56e0a56e0956e1456d1356d1256d0c56c1156d1056d0f56d0e56d0e5730d5730d5740b5730a57300000095731056c,
  0x11570105700e5720f5700e5700d5721c56e1b56e1a56e1956e1856f1756e1656e000001556e1456e1356e1256e1156e1056e0f56e0e57b0d57b0e56e,
  0xf5730f5750e5750d5750c5750b5750a5750c572095750c570105720f5720c56d1c5701b5701a5701957018571175701657015570145701357012570,
  0xa5760957c0c5740000009576145751357500000125751157510575105740f5740c5730e574185731757316573155731457313573125731157310573,
  0xe5770d5791857617576165761557614576135761257611576105760f5760e5760d5761157c0d5770b5761057c0f57c0e57c0d57c0d57e0b57c0a57c,
  0x1c5781b5781a578195781857817578165781557814578135781257811578105781857717577165771557714577135771257711577105770f5770e579,
  0xc57a0f57b095831057a0f57a0e57a0d57a185791757916579155790c57914579135791257911579105790c5770f5790c576205781f5781e5781d578,
  0x1657c1557c12584115841457c1357c105840f5840e5840d5840c5840b5840a5841257c095841857b1757b1657b1557b1457b1357b1257b1157b1057b,
  0xf57e0e57e0d5801857d1757d1657d1557d1457d1357d1257d0f5831157d1057d0f57d0e57f0e57d0e5830d5830d57f0c5830b5831857c0a5831757c,
  0x1957f1857f1757f1657f1557f0c57f1457f1357f1257f0c57d1157f1057f0f57f0c57b1857e1757e1657e1557e1457e1357e1257e1157e0e5801057e,
  0x1c5801b5801a58019580185801758016580155800c5801458013580125800c57e11580115810f5800c57c2057f1f57f1e57f1d57f1c57f1b57f1a57f,
  0x105830958a1c5821b5821a582195821858217582105821658215582145821358212582115821458113581125811058110580205801f5801e5801d580,
  0xd5880b5851558c1458c0a5851358c1258c09585145841158c1058c0f58c0e58c0d58c0b58b0a58b000000958b1358414583135831258311583,
  0x105860f5860e5860d5860c5860b5860e58d0d58d0a5861858c09586145851358512585115851758c1658c105850c58a0b58a0f5850a58a0e5850d585,
  0x2958727586265862558624586235862258621586205861f5861e5861d5861c5861b5861a586195861858617586165861558614586135861258611586,
  0x405863f5863e5863d5863c5863b5863a586395863858637586365863558634586335863258631586305862f5862e5862d5862c5862b5862a58629586,
  0x2c5872b5872a5872858654586535865258651586505864f5864e5864d5864c5864b5864a586495864858647586465864558644586435864258641586,
  0x12588115880e589105880f5880e5880d5893c5873b5873a58739587385873758736587285873558734587335873258731587305872f5872e5872d587,
  0xb5980a5980f58d0959809599185890c5891758916589155891458913589125890c58811589105890f5890c585185881758816588155881458813588,
  0x135991b58f1a58f1958f1858e1758e1658e1558e1458e1358e125991258e11599105991158e0f5990e5991058d0d5950d5990d59b0b5990a5990c598,
  0xd5940f59514592135920e59512592115920f59a145900e59a0d59a135900d59d12590115902058f1f58f1e58f0b59a0a59a1d58f0959a145991c58f,
  0x1858f1359512595115950c58b1c5941b5941a59419594185941759416594155941459413594105931259411594105940f594105950e594105911058e,
  0xf5970e5970d597205961f5961e5961d5961c5961b5961a596195961859617596165961559614596135961259611596105960f5960e5960d59614595,
  0xc5951859c1759b1659b095a01559b0c5941459b0c59b1359b1259b0c58d1159b1059b0c58c0f59b0e59b0c5991459a1359a1259a1159a1059a10597,
  0xa5a01c59d1b59d1a59d1959d1859e1759d1659d1559d0e59f1459d1359d1259d1159d1059d0f59d0e59d0c5970d59f1c59b0c5961b59b1a59b1959b,
  0xc5a20b5a2145a00a5a2095a71459f135a0125a01359f115a0115a40c59f0f5a01259f0c59d1159f1059f095a20e5a00d5a00f59f0c5a00b5a00c59a,
  0xa5a71b5a21a5a2195a2185a31c5a01b5a01a5a0195a0175a2165a2185a1155a2145a2175a0135a2125a2165a0155a0115a2115a50f5a20e5a20d5a2,
  0xc5a90b5a9185a40a5a9175a4145a7135a7125a7165a4115a7105a8155a40f5a7145a4135a4105a4105a0095a90e5a70d5a7125a40c5a70b5a71c5a2,
  0x175a5165a5155a5145a5135a5125a5105a5105a20c5ab0b5ab0a5ab1c5a4095ab145a91b5a4135a9125a91a5a4195a4115a9105aa0f5a90e5a90d5a9,
  0x165ab155ab145ab135ab125ab115ab105ab0f5ab0e5ab0d5ab095ac245a6235a6225a6215a6205a61f5a61e5a61d5a61c5a51b5a51a5a5195a5185a5,
  0x1e5ac1d5ac1c5ac1b5ac1a5ac1c5a6195ac195ad175ac165ac155ac155af135ac125ac115ac105ac0f5ac0e5ac0d5ac0c5ac0b5ac0a5ac185ab175ab,
  0x185ad08575085730856d0856a08569085620855b0856808558215ad205ad1f5ad1e5ad000001d5ad1c5ad185ac1b5ad1a5ad205ac1f5ac0000008598,
  0x245ae085630855c285ae08556275ae245ad265ae285ad275ad265ad255ad085ab085a9085a20859a0858b255ae0858508584235ad0857c08576225ad,
  0x1a5af195af185af175af165af145ac305ae085ac085a7085a0085990858a2f5ae08586085832e5ae0857b2d5ae2c5ae2b5ae2a5ae295ae0856e0856b,
  0x305af2f5af2e5af2d5af2c5af2b5af2a5af00000295af285af275af265af255af245af235af145af225af215af205af1f5af1e5af1d5af1c5af1b5af,
  0x175b4165b4155b4155b5135b4125b4115b1405af3f5af3e5af3d5af3c5af000003b5af3a5af395af385af375af365af355af345af335af325af315af,
  0x165b5145b41c5b4105b0135b7125b7115b7105b70f5b70e5b70d5b70c5b70b5b70a5b7095b7095b8075b7065b7055b7145b11b5b41a5b4195b4185b4,
  0x225b7215b7205b71f5b71e5b71d5b71c5b71b5b71a5b7195b7185b700000175b7165b7155b7145b700000145b6135b6125b6115b6185b5145b5175b5,
  0x105b90f5b90e5b9000000d5b90c5b90b5b90a5ba0a5b9095ba105b80f5b80e5b8105b20d5b80c5b80b5b800000145b30a5bf0a5b8095bf245b7235b7,
  0xf5ba095c00960a076090660905609106080f6080e6080d6080c6080b6080a608096080960b076080660805608105b6105b40e5ba0d5ba0c5ba0b5ba,
  0xa60a0960c106090f6090e6090d6090c6090b6090a609096091b5ba1a5ba195ba185ba175ba165ba155ba145ba135ba125ba115ba0b5c0115bb0a5c0,
  0x155bc145bc135bc115be1c5bb1b5bb1a5bb195bb185bb175bb125bc165bb155bb145bb135bb125bb115bc1c5ba0f60a0e60a0d60a0c60a0a60c0b60a,
  0x1c5be1b5be1a5be105bb195be185be175be165be155be105ba145bd135bd125bd115bd145be1c5bc1b5bc135be1a5bc195bc185bc125be175bc165bc,
  0xf5c00e5c00d5c40b5c20d5c00a5c20c5c0095c2105bf0f5bf0e5bf0d5bf0b5c10c5bf0b5bf0a5c1105be095c1205be1f5be105bd1e5be1d5be105bc,
  0xd5c5145c3135c3125c3115c3105c20d5c80f5c20d5c90b5c70e5c20a5c70d5c2095c7105c10c5c60f5c10b5c60e5c10d5c10a5c60c5c1095c6105c0,
  0x135c50c5c5125c50c5c4115c5105c50f5c50c5c21c5c41b5c41a5c4195c4185c4175c4165c4155c4145c4135c4125c4115c40e5c5105c40f5c40e5c4,
  0x145c80e5ca0d5ca135c80d5cd0b5ca125c80a5ca115c8095ca0d5d40c5d4105c80b5d4000000f5c80a5d40e5c8095d4185c5175c5165c5155c5145c5,
  0xf5c90c5c7285c8275c8265c8255c8245c8235c8225c8215c8205c81f5c81e5c81d5c81c5c81b5c81a5c8195c8105c3185c8175c8165c8155c80e5c9,
  0x1e5cb1d5cb1c5ca1b5ca1a5ca195ca185ca175ca165ca155ca155cc0b5da135ca125ca0a5da095da115ca0c5d90b5d9105ca0a5d90f5ca095d9105c9,
  0x195ce185ce175ce165ce155ce155d3135cd125cd115cd105cd0f5cd0c5ca0e5cd145cc1c5cc1b5cc1a5cc195cc185cc175cc165cc145ca205cb1f5cb,
  0x195d0185d0175d0165d0155d01c5cb185cf175cf165cf155cf245ce235ce225ce215ce0c5c90c5cd0c5c8205ce1f5ce1e5ce1d5ce1c5ce1b5ce1a5ce,
  0x1c5d21b5d21a5d2185d2195d21c5d11b5d11a5d1195d1185d1175d1165d10e5d4185d3175d3165d3155d1205d01f5d01e5d01d5d01c5d01b5d01a5d0,
  0x1f5d41e5d41d5d41c5d41b5d41a5d4195d4185d4175d4165d4155d4115da145d4135d4105da0f5da125d40e5da115d4105d40d5da0f5d40d5dc155d8,
  0x165d7155d71c5d51b5d51a5d51a5d8195d8185d8175d8165d8195d5185d6175d5165d5155d5285d4275d4265d4255d4245d4235d4225d4215d4205d4,
  0x145da0d5dd0b5db135da0a5db125da095db205d81f5d81e5d81d5d8145cd205d71f5d71e5d71c5d81d5d71c5d71b5d71a5d7195d71b5d8185d7175d7,
  0x215da205da1f5da0b5e11e5da1d5da0a5e11c5da1b5da095e10d5e91a5da0b5e0195da185da0a5e0175da095e0105db0f5db165da155da0e5db0d5db,
  0x315da305da145d8145d72f5da2e5da2d5da2c5da2b5da145d52a5da295da285da275da265da255da245da145d3145d1145d0145cf145ce235da225da,
  0x185db175db0d5e3165db145e2135e2155db145db125e2115e2135db105e20f5e2125db0e5e2115db0d5e2385da375da365da355da345da335da325da,
  0xf5dd0e5dd0c5db145dc0c5dc135dc125dc115dc105dc0f5dc0e5dc0c5da245db235db225db215db205db1f5db1e5db1d5db1c5db1b5db1a5db195db,
  0xf5e30e5e30a6030d5e409603185de175de165de155de145df135de125de115de105de0c5de0f5de0e5de0d5de145dd0c5dd135dd125dd115dd105dd,
  0x106040f6040d5f3185e30e6040d604175e30d6060b604165e30a6041060309604155e30f603145e3135e30e603125e3115e30d6030d605105e30b603,
  0x1e5e71d5e71c5e71b5e71a5e7195e7185e7175e7165e7155e7155ed135e6125e6115e6105e50f5e50e5f30e5e50d5e512604105e40f5e4116040e5e4,
  0x1b5e81a5e8195e8185e8175e8165e8155e82c5e7115f32b5e7105f32a5e70f5f3295e7285e7275e7265e7255e7245e7235e7225e7215e7205e71f5e7,
  0x305e82f5e82e5e82d5e82c5e82b5e82a5e8295e8285e8275e8265e8255e8245e8235e8225e8215e8205e81f5e8175ed1e5e8165ed1d5e8105e61c5e8,
  0x235e9225e9215e9205e91f5e91e5e91d5e91c5e91b5e91a5e9195e9185e9175e9165e9155e9145e9135e9125e900000115e9105e90f5e90e5e90d5f2,
  0x255eb385ea375ea365ea355ea0e5f2345ea335ea325ea315ea305ea2f5ea2e5ea265ec2d5ea2c5ea2b5ea2a5ea295ea285ea275ea265ea255ea255ec,
  0x3c5eb3b5eb3a5eb395eb385eb375eb365eb355eb345eb335eb325eb315eb305eb2f5eb2e5eb2d5eb2c5eb2b5eb2a5eb295eb285eb275eb265eb275ec,
  0x2e5ec2d5ec2c5ec2b5ec2a5ec295ec285ec245e94c5eb4b5eb4a5eb495eb485eb475eb465eb455eb445eb435eb425eb415eb405eb3f5eb3e5eb3d5eb,
  0x195ee195ef175ee165ee155ee1c5ed245ec245eb1b5ed1a5ed195ed185ed155f1385ec375ec365ec355ec345ec335ec325ec315ec245ea305ec2f5ec,
  0x1a5ef305ee2f5ee2e5ee2d5ee2c5ee2b5ee2a5ee295ee285ee275ee265ee255ee245ee235ee225ee215ee205ee1f5ee1e5ee1d5ee1c5ee1b5ee1a5ee,
  0x1e5f01d5f01c5f01b5f01a5f0185f0195f0245ef235ef195f1225ef215ef205ef1f5ef1e5ef1d5ef000001c5ef185f1185ef175f11b5ef165f1185ee,
  0x175f2165f2155f2145f2135f2125f2115f2105f20f5f20d5f9205f11f5f11e5f11d5f11c5f11b5f11a5f1145e6245f0235f0225f0215f0205f01f5f0,
  0x145f5145e8135f5145e7125f5115f5115f60f5f50e5f50d5f51c5f41b5f40e5f81a5f4195f4185f3175f3165f3155f3145f3135f3125f30d5f8185f2,
  0x125f8175f7165f7155f7115f8145f7115fa135f70f5f8145f1125f70f5f9115f7145f6145ee0e5f9135f6125f6105f6185f5175f5165f5155f5145ed,
  0x1b5f91a5f9195f9185f9175f9165f90e601185f4155f9145f9135f9125f9115f9115fe105f50c5e00d601145f81c5f7135f81b5f71a5f7195f7185f7,
  0x106011f5fa0f6011e5fa1d5fa1c5fa1b5fa1a5fa195fa185fa175fa165fa155fa155fb135fa125fd125fa115fd205f91f5f9105f71e5f91d5f91c5f9,
  0x1f5fb1e5fb1d5fb165fc1c5fb1b5fb1a5fb195fb185fb175fb165fb0c5f91460113601155fc245fa235fa0c5f212601225fa215fa0c5e911601205fa,
  0x145fc105f8135fd245fc235fc225fc215fc145fb205fc1f5fc1e5fc1d5fc1c5fc1b5fc1a5fc195fc185fc175fc145fa245fb235fb225fb215fb205fb,
  0x245fe235fe225fe215fe205fe1f5fe1e5fe1d5fe1c5fe105fe1b5fe1a5fe195fe105fd185fe175fe165fe155fe145fe135fe125fe105f9145fd105fa,
  0x1c6001b6001a6001960018600176001660015600345ff335ff325ff315ff305ff2f5ff2e5ff2d5ff2c5fe2b5fe2a5fe295fe285fe275fe265fe255fe,
  0x1c6021b6022c5ff1a60219602186021760216602156021460213602126020c5e41460011602106020f6020e6020d6021860117601166010c5e115601,
  0xc5f30c6070b6070a6070c5e5096070c5e30c6060c5e2106060f6060c6050e6060c604106050f6050e6050c603146041360414603136031260311603,
  0x19607085da1860717607085d41660715607085c6085c114607085bf136070c602085b80c601085b712607116070c5f80c5f5106070f6070e6070d607,
  0x86070b60b08604085e10a60b1460a085db1360a085d9085ca1260a1160a085c7085c21060a085c0085ba1c607085b91b607085b008603085e01a607,
  0x1160b1060b0f60b0e60b0d60b0c60b0960e1561814618136181261811618106180f6180e6180d6180d6260b6180a6180961809639076180661805618,
  0x146191361912619116191161b0f6190e6190d6190d61c0b6190a619096190a6391861817618166180e60c0d60c0c60c0b60c1460b0a60e1360b1260b,
  0x1560d1460d1360d1260d1160d1060d0f60d0e60d0d60d0c60d0b60d0a60d0c60f0b60f0960d1460c1360c1260c1160c0a60f1060c0f60c0960f0561a,
  0xe60f0860a0d60f0b614086091460e1360e0a6141260e1160e1060e0f60e0e60e0d60e0c60e0b60e096141c60d1b60d1a60d1960d1860d1760d1660d,
  0x166101561015611136101261011610106100f6100e6100d6100d6120b6100a61008610096100860f1460f1360f0860d0860c1260f1160f1060f0f60f,
  0x2e6102d6102c6102b6102a610296102861027610266102561024610236102261021610206101f6101e6101d6101c6101b6101a610196101861017610,
  0x146121361212612116120e616106120f6120e6120d616206111f6111e6111d6111c6111b6111a611196111461118611176111661114610306102f610,
  0xf6160c61014614136141261411614106150f6140e6140d6140c61408614206131f6131e6131d6131c6131b6131a6131961318612176121661215612,
  0x66ad056ad186131061a0f61a0860e0e61a0d61a0d61e0860b0b61a0c6160a61a0961a096380761a0661a146160860813616126160c6121161610617,
  0x1861a1761a1661a1561a1461a1361a1261a1161a166ad156ad146ad136ad126ad116ad106ad0f6ad0e6ad0d6ad0c6ad0b6ad0a6ad096ad096b0076ad,
  0x106ae0f6ae0e6ae0d6ae0c6ae0b6ae0a6ae096ae096af076ae066ae056ae1c6ad1b6ad1a6ad196ad186ad176ad1361b1261b1c61a1b61a1a61a1961a,
  0x1861c1761c1661c1561c1461c1361c1261c1061b1161c1061c0f61c0e61c0e61d0d61d1c61b1b61b1a61b1961b1861b1761b1661b1561b1461b10619,
  0x2361d2261d2161d2061d1f61d1e61d1d61d1c61d1b61d1a61d1961d1861d1761d1661d1561d1461d1361d1261d1161d1061d0f61d0f61f0e61f0d61f,
  0x1562118620176201062316620156201461f1361f1261f1161f1061f0e6250f6230e6230d6231461e1361e1261e1161e1061e0f61e0e61e0d6252461d,
  0xf6251062718623176231662315623146241362312623116230f6270e6270d6271c6221b6221a6221962218622176221662215622186211762116621,
  0x126270f6350e6350d63514626146220c6251362612626116260c61e1062614621146200f6260e6260d634156311362512625116250c61a1162710625,
  0x1e62a1d62a1c62a1b62a1a62a1962a186291762916629156291c6281b62812635116351a6281962811636186281762816628156281562f136270e634,
  0x1a62f1962d1962f1862d1762d1862f1762f1662f1662d1562d1c62c1b62c1a62c1962c1862c1762c1662c1562c1862b1762b1662b1562b2062a1f62a,
  0x1b6301a6301963018630176301663000000156301c62f146271c62e1862a1b62e000001a62e1962e1862e1762e1662e1562e1b62f1c62d1b62d1a62d,
  0x1763316633156331c6321b6321a63219632186321763216632156321c6311b6311a6311963118631176311663114625206301f6301e6301d6301c630,
  0x1463214630196340c6341462f0c62618634176341462e1663415634146341462d136341462c12634116341462b1462914628106340f6340c61818633,
  0x12636106350c6351c6350c6270c6231b6351a6350c61f14631196351863517635166351563514635136350c61d0c61c0c6191c634146331b6341a634,
  0x96412863727637266372563724637236372263721637206371f6371e6371d6371c6371b6371a6371963710636186361763616636156361463613636,
  0x11639106390f6390e6390d6390c6390b6390a642096421863817638166381563814638136381263811638106380f6380e6380d6380c6380b6380a638,
  0xb6421663a1563a1463a1363a1263a1163a1063a0f63a0e63a0d63a0d63b0b63a0a63a0963a18637186390a641176391663915639146391363912639,
  0x1263c1163c1163e0c63c0f63c0e63c0d63c1863b1763b1663b1563b1463b1363b000001263b1163b1063b0f63b0e63b0c63b0c63a1863a1763a0d644,
  0x1563f1863e1763e1663e1563e1463e1363e1263e1063c1c63d1b63d1a63d1863d1963d1c63c1b63c1a63c1963c1863c1763c1663c1563c1463c1363c,
  0x106410f6410e6410d6410d6430b6410964e206401f6401e6401d6402063f1f63f1e63f1d63f1463f1c63f1b63f1a63f1963f1863f1763f1063e1663f,
  0x1564214642136421264211642106420f6420e6420d6420a649096491c6411b6411a6411964118641176411664115641146411364112641116411c640,
  0xd6490d64a0b649176431664315643146431364312643116430e647106430f6430e6430d6471c6421b6421a6421964218642176420b64e166420a64e,
  0x12645106441c6441b6441a6441964418644176441664415644146441364412644116440e646116450f6440e6440d6461c6431b6431a6431964318643,
  0x964f106480f6480e6480c6430d648106470f6470c6411464613646126460c64411646106460f6460c64218645176451664510645156451464513645,
  0x1864a1764a1664a1564a0e64b1464a1364a1264a0c6471164a1064a0f64a0e64a0d64b14649136490c6481264911649106490c6460f6490e6490a64f,
  0x1864b1764b0e64d1664b1564b1464b1364b1264b1164b1064b0f64b0d64d2064a0e64f0d64f0d6530b64f1f64a1e64a1d64a1c64a1b64a1a64a1964a,
  0x1464f1364f0c64d1264f0c64b1164f1064f0a65b0965b0c64a0f64f0d658096541464d1364d1264d1164d1064d0c6491c64c1b64c0f64d1a64c1964c,
  0xb65b0c6551c6510b6541b6510a6541a6511965118651176511665115651206501f6501e6501d6501c6501b6501a6501965018650176501665015650,
  0x1165310653146500f6530e6560e6530d6561865217652166521565224651236512265121651206511f6511864c1e6511d6510f65b0e65b0d65b0d65c,
  0x14658136581265811658106580f6580c6570e6580c64e106560c6530f6560c64f106540f6540e654146520a65d0d654146510965d146531365312653,
  0x2965828658276582665825658256592365822658216580d65d2165a0c65d1f6580b65d1e6581d6581c6581b6581a6581965818658176581665815658,
  0x29659286592765926659246583c6583b6583a658396583865837658366583565834658336583265831658306582f6582e6582d6582c6582b6582a658,
  0x3f6593e6593d6593c6593b6593a659396593865937659366593565934659336593265931659306592f6592e6592d6592c6592b6590c6582a65924659,
  0x2b65a2a65a2965a2865a2765a2665a2565a2465a2365a2265a206584c6594b6594a65949659486594765946659456594465943659426594165940659,
  0x4265a4165a4065a3f65a3e65a3d65a3c65a3b65a3a65a3965a3865a3765a3665a3565a3465a3365a3265a3165a2065a3065a2f65a2e65a2d65a2c65a,
  0x1365b1265b1165b1065b0a65f0965f5465a5365a5265a5165a5065a4f65a4e65a4d65a4c65a4b65a4a65a4965a4865a4765a4665a4565a4465a4365a,
  0x1a65c1965c1865c1765c1665c1565c1465c1365c1265c1165c1065c0e65e0f65c0e65c0d65e1c65b1b65b1a65b1965b1865b1765b1665b1565b1465b,
  0x1465f0c65e1365f1265f1165f0a669096690c65c1065e0f65e0c65b1065d0a6630f65d0e65d096631065f0f65f0e65f0d65f0c65f0b65f1c65c1b65c,
  0x1766116661146600e6630d663186600c663176600b663166601566015661136601266011660106600f6600e6600d6600d6640b6600a660096600b669,
  0x1166510664000000f6640e6640a6920c6601066309692146610f6631c6621b6621a66200000126691966211669106690f6690e6690d6690d68618661,
  0x1b6660b6921a666196661966817666166661566614666136661266611666106660f6660e6660d6660c6640c6660b6660a66609666146651366512665,
  0x2d6662c6662b6662a666296662866627666266662566624666236662266621666206661f6661e6661d666106920f6921d6670e6920d692186620d696,
  0x44666436664266641666406663f6663e6663d6663c6663b6663a66639666386663766610665366663566634666336663266631666306662f6662e666,
  0x1b6681a6681966d2d66a2b6672a6672966728667276672666725667246672366722667216671c667206671f6671e6671c66648666476664666645666,
  0x17669166691566914669136690a688096882c6682b6682a668296682866827668266682566824668236682266821668206681f6681e6681d6681c668,
  0x2e66a2d66c2b6692a669296692866927669266692566924669236692266921669206691f6691e6691d6691c6691a66d1b6691a66919669196730b688,
  0x3166b3066b2f66b2c6673866a3766a3666a3566a3466a3366a3266a3166a3066a2f66a13688126882e66b11688106880f6880e6880d6880d6892d66b,
  0x4766b4666b4566b4466b4366b4266b4166b4066b3f66b3e66b2c66b3d66b3c66b3b66b3a66b3966b3866b3766b3666b3566b2c66a3466b3366b3266b,
  0x3b66c3a66c3966c3866c3766c3666c3566c3466c3366c3266c3166c3066c2f66c2e66c2c6695066b4f66b4e66b4d66b4c66b4b66b4a66b4966b4866b,
  0x2f66d2e66d2d66d2c66d2b66d2a66d2966d2866d2766d2666d2566d2466d2366d2266d2166d2066d1f66d1e66d1d66d1c66d1a66e1b66d1966e3c66c,
  0x2966e2866e2766e2666e2566e2c66c2466e2366e2266e2166e2166f1f66e1e66e1d66e1c66e1b6721a6721b66e196723466d3366d3266d3166d3066d,
  0x4066e3f66e3e66e3d66e3c66e3b66e3a66e3966e3866e3766e1c6723666e3566e3466e3366e3266e3166e3066e2f66e2e66e2d66e2c66e2b66e2a66e,
  0x2b66f2a66f2966f296702766f2666f2566f2466f2366f2066f2266f2066e4c66e4b66e4a66e4966e4866e4766e4666e4566e4466e4366e4266e4166e,
  0x4366f4266f4166f4066f3f66f3e66f3d66f3c66f3b66f3a66f3966f3866f3766f3666f3566f3466f3366f3266f3166f3066f2f66f2e66f2d66f2c66f,
  0x366703567034670336703267031670306702f6702e6702d6702c6702b670286702a6702866f4c66f4b66f4a66f4966f4866f4766f4666f4566f4466f,
  0x196794c6714b6714a67149671486714767140671466714567144671436714267141671406703f6703e6703d6703c6703b6703a670396703867037670,
  0x1d6731c6731b6731a673196752c6722b6722a672296722867227672266722567224672236722267221672206721f6721d67d1e6721b6791a6791d672,
  0x336733267331673306732f6732e6732d6732c6732b6732a6732967328673276732667325673246731d679236732267321673206731a6751f6731e673,
  0x3a67439674386743767436674356743467444673436734267341673406733f6733e6733d6733c6733b6733a673396733867337673366733567334673,
  0x2d6752c6752b6752a6752967529676276752667525675246751b6772367522675216751a677206751f6751e6751d6751c6751b675196773c6743b674,
  0x2d6762c6762b6762a67628675406753f6753e6753d6753c6753b6753a675396753867537675366753567534675336753267531675306752f6752e675,
  0x44676436764267641676406763f6763e6763d6763c6763b6763a67639676386763767636676356763467633676326763167630676286762f6762e676,
  0x2b6772a6771c67829677286772767726677256771b6782467723677226771a67821677206771f6771e6771d6771c6771967848676476764667645676,
  0x436774267741677406773f6773e6773d6773c6773b6773a677396773867737677366773567734677336773267731677306772f6772e6772d6772c677,
  0x2e6782d6782c6782b6781d67c1c67c2a678296782867827678266781b67c2567824678236781a67c2267821678206781f6781e6781d6781967c44677,
  0x1c6801f6791b6801a6801e67919680406783f6783e6783d6783c6783b6783a678396783867837678366783567834678336783267831678306782f678,
  0x3567a3467a3367a3267a3167a3067a2f67a2e67a2d67a2c67a1d6802b67a2a67a2467a2967a2867a2767a2667a2567a2467923679226792167920679,
  0x3767b3667b3567b3467b3367b3267b3167b3067b2f67b2e67b2d67b2c67b2b67b2a67b2967b2867b2467b2767b2667b2567b3867a1e6803767a3667a,
  0x18678186772b67c2a67c2967c2867c2767c186752667c2567c2467c186732367c2267c2167c2067c1f67c1e67c186693c67b3b67b3a67b3967b3867b,
  0x1e67d1c6794067c3f67c3e67c3d67c3c67c3b67c3a67c3967c3867c3767c3667c3567c3467c3367c3267c3167c3067c2f67c2e67c2d67c2c67c1867c,
  0x3567d3467d3367d3267d3167d3067d2f67d2e67d2d67d2c67d2b67d2a67d1c67d2967d2867d2767d2667d2567d2467d2367d2267d2167d2067d1f67d,
  0x3867e4067f3f67f3e67f3d67f3c67f3b67f3867d4467e4367e4267e4167e4067e3f67e3a67f3e67e3d67e3c67e3b67e3a67e3967e3967f3767d3667d,
  0x25680246802368022680216801c684216811b6841a6841f680196844c67f4b67f4a67f4967f4867f4767f4667f4567f4467f4367f3867f4267f4167f,
  0x3a680396801f6843868037680366803568034680336803268031680306802f6802e6801e6841d6842d6802c6802b6802a68029680286802768026680,
  0x2a6812968128681276812668125681246812368122681216824868047680466804568044680436804268041680406803f6803e6803d6803c6803b680,
  0x41681406813f6813e6813d6813c6813b6813a68139681386813768136681356813468133681326813168122682306812f6812e6812d6812c6812b681,
  0x346823368220682326822068131682306822f6822e6822d6822c6822b6822a6822968228682276822668225682246822368220680446814368142681,
  0x2268418672216841866e1866d206841866644683436834268341683406833f683386833e6833d6833c6833b6833a6833968338682376823668235682,
  0x30685366853568534685336853268531685306842f6841868418680186792e6842d6842c6842b6842a68429684286842768426684256842468423684,
  0x136871268711687106870c6870f6870e6870d687146860c686136861268611686106860f6860e6860c6693c6853b6853a68539685386851866837685,
  0x2b6872a687296872868727687266872568724687236872268721687206871f6871e6871d6871c6871b6871a687196871868717687166871568714687,
  0x136891268911689106890f6890e6890d68a0b68d18688176881668815688146880a68d0968d34687336873268731687306872f6872e6872d6872c687,
  0xc6881168d1068d0f68d0e68d0d68d0c68d1168b1068b0f68b0e68b0d68b0c68b0b68b0a68b0968b1068a0f68a18689176891668915689146890e68a,
  0x2368c2268c2168c2068c1f68c1e68c1d68c1c68b1b68b1a68b1968b1868b0c68a1768b1668b1568b1468b0c6891568d1468d1368b1268b1368d1268d,
  0x1168e1168f0f68e0e68e0d68e0d6900b68e0b6970a68e0968e1868d1768d1668d0a697096972c68c2b68c2a68c2968c2868c2768c2668c2568c2468c,
  0xe69011697106970f6970e6970d6970d6991868f1768f1668f1568f1068f1468f1368f1268f1068e1868e1c68c1768e1668e1568e1468e1368e1268e,
  0x1269111691116930f6910e6950d6951869017690166901569014690136901269011690106900f690186981769816698156980e6910d6911369712697,
  0x166941569414694136941269410693116941469313693126931069114692136920a69b0f695126920969b11692186911769116691156911469113691,
  0xc6911069b0f69b176950e69b0d69b166950c69b156950b69b146951369512695116950c6900c68e106951c6941b6941a69419694186941769410694,
  0x186961769616696156961469613696126960c69611696106960f6960e6960c692206951f6951e6951d6951c6951b6951169b0c6951a6951969518695,
  0x306962f6962e6962d6962c6962b6962a696296962869627696266962569624696236962269621696206961f6961e6961d6961c6961b6961a69619696,
  0x1869917699166991569914699136991269911699106990f6990e6990c6970b69c1c6981b698146971a698196980a69c0969c34696336963269631696,
  0x1469c0a69a0969a1369c1269c246991169c1069c0f69c0e69c0d69c0d69e236992269921699206991f6991e6991d6991c6990c6991b6991a69919699,
  0xa6aa1369b1269b096aa1869a1769a1669a1569a1469a1369a1269a1169a1069a0f69a0e69a0d69a0c69a0b69a1969c146981869c1769c1669c1569c,
  0x2b69b2a69b2969b2869b2769b2669b2569b2469b2369b2269b2169b2069b1f69b1e69b1d69b1c69b1b69b1a69b1969b1869b1769b1669b1569b1469b,
  0xd69f0b69d136aa126aa0b6a40a69d116aa0969d1c69c1b69c0a6a4096a4106aa0f6aa1a69c0e6aa0d6aa3069b0c6aa2f69b0b6aa2e69b2d69b2c69b,
  0xf6a40e6a40d6a40d6a51069f0f69f0e69f1469e1369e1269e1169e1069e0f69e0e6a00e69e0d6a01469d1369d1269d1169d1069d0f69d0e69d0d69d,
  0xc6a0126a1116a1106a10f6a10c69e0c69f0c69c0e6a11a6a4196a40c69d186a4176a4166a4156a4146a40d6a1106a0136a4126a40f6a0116a4106a4,
  0xf6a50e6a50e6a60d6a61c6a40a6ab096ab1b6a4106a21c6a31b6a31a6a3196a3186a2176a20c6a1166a2156a2146a2136a2126a2116a2146a1136a1,
  0x166a7156a7146a6136a6126a6116a6106a60f6a60c6a50c6a41c6a51b6a51a6a5196a5186a5176a5166a5156a5146a5136a5126a5116a5106a50b6ab,
  0x186a8176a8166a81b6ab1a6ab196ab186a3186ab176ab166ab156ab146ab156a8186a7136ab126ab176a7116ab106ab0f6ab0e6ab0d6ab0c6ab0c6a6,
  0x166aa146a908654156aa146aa08638246a9146a8146a7236a9226a9216a9206a91f6a91e6a91d6a91c6a91b6a91a6a9196a9186a9176a9166a9156a9,
  0x2e6aa2d6aa2c6aa2b6aa2a6aa296aa286aa276aa266aa256aa246aa236aa226aa216aa206aa1f6aa1e6aa1d6aa1c6aa1b6aa1a6aa196aa186aa176aa,
  0xc6ac0b6ac086aa0a6ac0869d0869b0865f096ac08692206ab1f6ab1e6ab086390861808666086631d6ab0865d0864e1c6ab08641306aa0861a2f6aa,
  0x865b0864f08649086420863a086190d6af0c6af0b6af0a6af0a6b1096b11c6ae1b6ae1a6ae196ae186ae176ae166ae156ae146ae136ae126ae116ae,
  0xa7730977309778077730677305773086ac136af126af086ab086a40869c0869a116af086970868e0868d0868b08688106af0f6af08669086600e6af,
  0x96c30d6b80b6b00a6d10a6b0096d1186af176af166af156af146af0b7740a7740977409777077740677405774107730f7730e7730d7730d7750b773,
  0xd6b20d6b60b6b10f7750e7751c7741b7741a774197741877417774167741577414774137741277411774107740f7740e7740d7740d7760b6c30a6c3,
  0x1c6b31b6b31a6b3196b3186b3176b3166b3156b3146b3136b3126b30e6b8116b3106b30f6b30e6b30d6b3146b2136b2126b2116b2116b40f6b20e6b2,
  0x156b5146b5136b5126b5116b5106b50f6b50e6b50d6b50f6b61c6b40e6b61b6b41a6b4196b4186b4176b4166b4156b4146b4136b4106b4126b4106b2,
  0x1b6b81a6b8196b8186b8176b8166b8156b8146b8136b8126b80e6bb116b8106b80f6b80d6c1106b70f6b70e6b70d6b7106b60d6bb186b5176b5166b5,
  0xe6c1136ba116bb126ba106bb116ba0f6bb106ba0f6ba0e6ba0d6ba1c6b91b6b91a6b9196b9186b9176b9166b9156b9146b9136b9126b9116b91c6b8,
  0x136bc126bc116bc116bd0f6bc0e6c00e6bc0d6bc186bb176bb166bb156bb146bb136bb126bb0d6c0106c1186ba176ba166ba0f6c1156ba106b9146ba,
  0xe6bf0f6c00d6bf1c6be1b6be1a6be196be186be176be166be156be146be136be126be116be146bd136bd126bd106bd186bc176bc166bc156bc146bc,
  0x206bf1f6bf1e6bf1d6bf1c6bf1b6bf1a6bf196bf186bf176bf146c0166bf136c0156bf106bc146bf136bf126c0126bf116bf106bf116c00f6bf106c0,
  0xf6c30e6c30d6c30c6c30d6c70b6c60a6c6096c60c6b6106c20f6c20e6c20c6b00d6c2186c0176c0166c0156c00c6b1246bf106be236bf226bf216bf,
  0xc6b70f6c60c6b50e6c60c6b20d6c60d6d20c6d20b6d20a6d2096d2186c5176c5166c5156c5186c4176c4166c4146c3156c4136c3126c3116c3106c3,
  0x146c50d6ce1c6c6146c40c6c21b6c61a6c6196c6186c6176c60c6c0166c6156c60c6bf0c6ba0c6bc156c8136c60c6b8126c60c6bb116c60c6b3106c6,
  0x1f6c9146c81e6c91d6c91c6c91b6c91a6c9196c9186c8176c8166c8146c6186c7176c7166c7156c7146c7136c7126c7116c7106c70f6c70c6c10e6c7,
  0x106cd0f6cd0e6cd0d6cd146cc106ce136cc126cc116cc106cc0f6cc0e6cc0d6cc146ca136ca0f6ce126ca0e6ce116ca106cb0f6ca0e6ca0d6ca206c9,
  0x1a6ce196ce186ce176ce186c9166ce156ce156cf136ce126ce0c6c71c6cd1b6cd1a6cd196cd186cd176cd166cd156cd146cd136cd126cd116cd116ce,
  0xc6ca136d00c6c6126d0116d0106d00f6d00e6d0146cf0d6d0186cf176cf166cf146ce246ce236ce226ce216ce206ce1f6ce1e6ce1d6ce1c6ce1b6ce,
  0xb6d40a6d4096d40c6d0146d3136d3126d30c6ce0c6cd116d3106d20f6d20e6d2106d10c6cc0f6d10e6d10b6d50d6d10c6d10a6d50b6d1096d5146d0,
  0x146d4136d4126d4116d4106d40f6e20f6d40e6e20d6e20d6e50b6e20a6e2096e21c6d31b6d31a6d3196d3186d3176d3166d3156d30e6d40d6d40d6d6,
  0xd6db1c6d51b6d51a6d5196d5186d5106d3176d5166d5156d5146d5136d5126d5116d5106d50f6d50e6d50d6d50d6d7096d9186d4176d4166d4156d4,
  0x116d7106d70f6d70e6d70c6d51c6d61b6d61a6d6196d6186d6176d6166d6156d60c6d9146d6136d60b6d9126d60a6d9116d6116d80f6d60e6db0e6d6,
  0x1b6d91a6d9196d9106d8196da176d9166d9156d9146d9136d9126d9116d9106d90f6d90e6d90d6d9096e1146d8136d8126d8106d6146d7136d7126d7,
  0x2e6d92d6d92c6d92b6d92a6d9296d9286d9276d90d6e1266d90c6e1256d9246d90b6e1236d90a6e1226d9216d9206d91f6d90c6d71e6d91d6d91c6d9,
  0x216da1a6dd206da1f6da1e6da1d6da1c6da1b6da1a6da196dd3c6d93b6d93a6d9396d9386d9376d9366d9356d9346d9336d9326d9316d9306d92f6d9,
  0x386da376da00000366da356da346da336da326da316da306da2f6da2e6da2d6da2c6da2b6da2a6da296da286da276da266da256da246da236da226da,
  0x1f6db1e6db1d6db1c6db1b6db0f6df1a6db196db196dc176db166db156db146db136db126db116db106db0e6df0f6db0d6df3c6da3b6da3a6da396da,
  0x2a6dc296dc286dc276dc266dc256dc246dc236dc226dc216dc206dc1f6dc1e6dc1d6dc1c6dc186dc1b6dc1a6dc186db246db236db226db216db206db,
  0x226dd1a6de216dd206dd1f6dd1e6dd1d6dd1c6dd1b6dd196de386dc376dc366dc356dc346dc336dc326dc316dc306dc2f6dc2e6dc2d6dc2c6dc2b6dc,
  0x396dd386dd376dd366dd356dd346dd336dd326dd316dd306dd2f6dd2e6dd2d6dd2c6dd2b6dd2a6dd296dd286dd276dd1b6de266dd256dd246dd236dd,
  0x296de286de186dd276de266de256de246de236de186da226de216de206de1f6de1e6de1d6de1c6de186d9406dd3f6dd3e6dd3d6dd3c6dd3b6dd3a6dd,
  0x156e1146e1136e1126e1116e1106e10f6e10e6e1096f10c6d6106df0c6d4346de336de326de316de306de2f6de2e6de2d6de2c6de2b6de2a6de186de,
  0xd6f1166e20c6f1156e2146e20b6f1136e20a6f1126e2106f00f6f00c6e00e6f00d6f00c6f00b6f00a6f0096f0116e2106e2186e10c6db176e1166e1,
  0x186e6176e6166e6156e6146e6136e60c6e5126e6116e6116ee0f6e50e6e50c6e21c6e41b6e41a6e4196e41c6e31b6e31a6e3196e3186e2176e20e6f1,
  0x136eb126eb186e3116eb186ea176ea166ea156ea146e9136e9126e9116e9186e8176e8166e8156e8146e7136e7126e7116e71c6e61b6e61a6e6196e6,
  0x186ee176ee106e5186ed176ed166ed166ee156ed156ee146ed186e4146ec136ed146ee126ed136ee126ee116ed186ec176ec166ec146eb146ea156ec,
  0x1e6ef1d6ef1c6ef000001b6ef1a6ef196ef186ef176ef166ef146e8156ef146ef136ef126ef116ef206ee1f6ee1e6ee1d6ee1c6ee1b6ee1a6ee196ee,
  0x96fa106eb186f0176f0166f0156f0106e9146f0106e7106e6116f2136f0126f0116f30f6f2116f00e6f20d6f20d6f40b6f20a6f2096f2206ef1f6ef,
  0x236f1226f1216f1206f11f6f11e6f11d6f11c6f11b6f11a6f1196f1186f1176f1166f1156f1146f1136f1126f1116f1106ef106f1106ee0f6f1106ed,
  0xd6fb0d6fc0b6fb0a6fb096fb306f12f6f12e6f12d6f12c6f12b6f10f6fa2a6f1296f1286f10e6fa0d6fa276f10c6fa266f1256f10b6fa246f10a6fa,
  0x246f2236f2226f2216f2206f21f6f21e6f21d6f21c6f21b6f21a6f2196f2186f2176f2166f2156f2126fb116fb146f2136f2106fb0f6fb126f20e6fb,
  0x146f3136f3126f3106f2386f2376f2366f2356f2346f2336f2326f2316f2306f22f6f22e6f22d6f22c6f22b6f22a6f2296f2286f2276f2266f2256f2,
  0x1a6f4196f4186f4176f4166f4156f4146f4136f4126f4116f40e6f5106f40f6f40e6f40d6f51c6f31b6f31a6f3196f3186f3106f3176f3166f3156f3,
  0x146f6136f6126f6106f6116f60c6f5146f5136f5126f50c6f4116f5106f50f6f50c6f2246f4236f4226f4216f4206f41f6f41e6f41d6f41c6f41b6f4,
  0x156fa146fa136fa126fa096ff116fa106fa186f9176f9166f9156f9146f8136f8126f8116f8106f70f6f70e6f70c6f70d6f7186f6176f6166f6156f6,
  0x106fc0c6ff0f6fc0b6ff0e6fc0d7001c6fb1b6fb1a6fb196fb186fb176fb166fb156fb146fb136fb1c6fa1b6fa1a6fa196fa186fa0a6ff176fa166fa,
  0x176fe1270111701146f9166fe117030f701156fe0e7010d7010c7010b7010a70109701146fd106ff136fd126fd116fd0f6ff0e6ff106f80d6ff0e700,
  0x146fe147010c7001470013700127000c6fc1170010700106fd0a7080f7000c6fb146ff136ff126ff116ff097081c6fe1b6fe1a6fe196fe186fe13701,
  0xa704097041170823702107082270221702207020f7080e7081f7020d7081e7021d7020d7121c7010b7081b7011a7011970118701177011670115701,
  0xd71c0c71c0b71c0a71c0971c147031370312703107012870214704137042770212704117042670225702117060f704247020e7040d7040d7090b704,
  0x16706157061470613706127061c702107041c7051b7051a70519705187041571c1471c1371c177041271c1171c10703167041071c0f71c157040e71c,
  0x187091770916709157091570d1370912709117090a71d10709107060f7090e7090d711147080971d13708127081c7071b7071a707197071870617706,
  0x1171d2370b1071d187052270b2170b0f71d0e71d2070b0d71d1f70b1e70b0c71d1d70b0b71d1c70b1b70b1a70b1970b1c70a1b70a0e7111a70a1970a,
  0x1c70f1b70f1a70f1970f1c70e1b70e1870a1a70e1970e1870d1770d1670d147092c70c187072b70c2a70c2970c2870c2770c2670c2570c1271d2470b,
  0xe7120c7081171b0f7110c7042470c2c7102b7102a71029710287102771026710257102470f2370f1870b2270f2170f2070f1f70f1e70f1470d1d70f,
  0x157131870f147131371312713117131d7141b7121a712197120c711187120c70917712167121870e1571214712137121271211712107120c7120f712,
  0x2a7141e715297142871427714267142571424714237142271421714207141271b1f7141e7141d7151c7131b7131a71319713247101971a1771316713,
  0x4271441714407143f7143e7143d7143c7143b7143a714397143871437714367143571434714337143271431714307142f7142e7142d7142c7142b714,
  0x2b7152a715297152871527715267152571525717237152271521715207151f7151d7194c7144b7144a71449714487144771446714457144471443714,
  0x407163f7163e7163d716347163c7163b7163a71639716387163771636716357161f71934715337153271531715307152f7152e7152d7152c7151e719,
  0x33717247173271731717307172f7172e7172d7172c7172b7172a71729717287172771726717247154871647716467164571644716437164271641716,
  0x4a718497184871847718467183c7184571844718437184271841718407183f7183e7183d7183c7173b7173a717397173871737717367173571734717,
  0x2f7192e7192d7191c7142c7192b7192a719297192871927719267192571924719237192271921719207191c712507184f7184e7184d7184c7184b718,
  0x1271e1171e1871c1771c1071e0f71e1671c0e71e0d71e0d71f0b71e0a71e0971e1471b1371b1c719107111c7151c71a1b71a1a71a1871a1871330719,
  0x1c71f1b71f107131a71f1971f1871f1771f1671f1571f1471f1371f1271f1171f0e7201071f0d7200a7221471d1371d0f71f0e71f1471e1371e09722,
  0xd7250b7230a72309723137220e721127220d7211172216720107221572014720137200f7220e722127200d72211720107200c7221071b0b7220f720,
  0x1372112721117210c71f107210c71e1c7201b7201a72017724167241572414723137231972012723117231872017720107230f7230f7210e7230d723,
  0x1572514725137251272511725117270a7280f7250e7250c72318724147220c721097281c7211b7211a72119721187210c72017721167211572114721,
  0x117332572525726237250f7280e728227250d72821725207250d7401f7250b7281e7251d7251c7250c725147241b7251a72519725187251772516725,
  0x1a72a1972a1872a2c7251772a1672a2b7252a7251572a1472a297251372a1272a1172a0f7290e7290d7290d73d0b729287250a729277250972926725,
  0x24725407253f7253e7253d7253c7253b7253a725397253872537725367253572534725337253272531725307252f7252e7252d7251172b1c72a1b72a,
  0x1372b1272b1172c086d5187271772716727157271472713727127271072530726247262f7262e7262d7262c7262b7262a72629726287262772626726,
  0x86b011731086ad1372e1272e2072d1f72d1e72d1d72d1c72d1b72d1a72d1972d1172e1872d1772d1472c1672d1572d1372c086fa1272c107271472b,
  0xe76c0d76c0d76d0b76c0a76c0976c08728087220871d1b72e087081a72e086ff1972e086f1127311872e1772e086e1086d91672e086d11572e1472e,
  0x1572f1472f1372f1272f1172f2072e1f72e14731137311976c1876c1776c1676c1576c1576e1376c1e72e1276c1176c1d72e1c72e1076c0f76c1472d,
  0x137321273211732207311072b1f7311e7311d7311c7311b7311a73119731187311773110729187301773016730157301872f1772f1672f1673115731,
  0x1a733197331873317733167331573314733137331273310728207321f7321e7321d7321c7321b7321a73214730197321873217732167321573214732,
  0x1f7351e7351d7351c7341b7341a73410734107321973410731187341072f1072e1773416734157341573a1373412734117341072c1072a1d7371b733,
  0x297371073328737277371c737267372573724737237372273721737207371f7371e7371c733287362773626736257362473523735227352173520735,
  0x1c7382b7392a7392973928738277382673825738247381c735237382273821738207381f7381e7381d738307372f7372e7372d7372c7372b7372a737,
  0x1c73c1b73c1a73c1973c1c73b1b73b1473b1a73b1973b1873b1773b1673b1573b247361c73a1b73a1a73a1973a1473a1873a1773a1673a147342c739,
  0x2273e2173e2073e1f73e1e73e1d73e1c73e1b73e1a73e1973e1873e1773e1673e1573e157441373d1273d1173d1073d1873c0f73d0e73d0e74b0d74b,
  0x167442073f1f73f1e73f1d73f1c73f1b73f1a73f1973f1873f1773f1673f1573f2c73e2b73e2a73e2973e2873e2773e2673e2573e2473e287392373e,
  0x1274011740117490f7400e7400e74a0d74a3073f2f73f2e73f2d73f2c73f2b73f2a73f2973f2873f2773f2673f2573f2473f2373f2273f177442173f,
  0x2a741297412874127741267412574125743237402274021740207401f7401e7401d7401c7401b7401a74019740187401774016740157401474013740,
  0x2c7422b7422a7422974228742277422774326742257423874137741367413574134741337413274131741307412f7412e741267432d7412c7412b741,
  0x44742437424274241742407423f7423e7423d7423c7423b7423a742397423874237742367423574234742337423274231742307422f7422e7422d742,
  0x357433474333743327433174324741307432f7432e7432d7432c7432b7432a7432974328743247404c7424b7424a7424974248742477424674245742,
  0x21745207451f7451e7451d7451c7451b7451a74519745197461774516745157451c74424743247421b7441a744197441874415748387433774336743,
  0x1d7461c7461874818746177481b74616748187451a746307452f7452e7452d7452c7452b7452a7452974528745277452674525745247452374522745,
  0x1b7481a7481473d24747237472274721747207471f7471e7471d7471c7471b747187471a747197472474619748237462274621746207461f7461e746,
  0x2274921749207491f7491e7491d7491c7491b7491a74919749187491774916749107491574914749137491274910740207481f7481e7481d7481c748,
  0x1474c1374c1274c1174c1074c1174f0f74e0f74c147440f74d1473f0e74c1473e0d74c1074b0f74b0e74e0d74e1074a0e74d0d74d0f74a2474923749,
  0x1375712757117570c74e127530c74c0c74b117530c74d14751137510c74a127511474f1374f1274f0c73d0c72914748117511175a0c7400c72814745,
  0x1c7561b7561a7561975614756187561775616756147551c7551b7551a755197551875517755167551475715755157561375512755117551475313753,
  0x207591f7591e7591d7591c7591b7591a759197591475c187591775916759157591475813758127581375c1275c1175c11758207561f7561e7561d756,
  0x2775b2675b2575b2475a2375a2275a2175a2075a1f75a1e75a1d75a1c75a1b75a1a75a1975a1875a1775a1675a1575a1475a1375a1275a1575c11763,
  0x12762117623875b3775b3675b127633575b3475b3375b3275b3175b3075b2f75b2e75b1775c1675c2d75b2475b2c75b2b75b147592a75b2975b2875b,
  0x1375e1275e1175e2075d1f75d157621875d1e75d1d75d1c75d1b75d1a75d1875c2075c1f75c147621e75c1d75c1c75c1b75c1a75c1975c1975d13762,
  0x1b75f1a75f1975f1875f1775f1675f1575f1475f1375f1275f1175f2075e1f75e1e75e1d75e1c75e1b75e1a75e1975e1875e1775e1675e1575e1475e,
  0x1c76218761177611676115761187601776016760157601476013760127601b7621a76219762117602075f1f75f187621e75f1d75f17762167621c75f,
  0x13764147611276410757117641c7631b7631a76319763187631776316763157631074e147631074d13763207621f7621e7621d762107541075210750,
  0x1f7671e7671d7672876627766267662576624765237652276521765207651f7651e7651d7651c7641b7641a764197641876417764167641576415769,
  0x2b7682a7682976800000287671076427767107631076226767107601075f1075e0000025767247671075c237672276710758107551075a2176720767,
  0x1976b247661c76a1b76a1a76a1976a1476a1876a1776a1676a1576a1c7691c7671b7691a7690000019769187691476917769167691c765147642c768,
  0x117711476d1376d107710f7711276d0e7710d7710c7710b7710a771097711176d1076d0f76d0e76d0c76d1876b1c76c1b76c1a76c1c76b1b76b1a76b,
  0x1d76f1c76f1b76f1a76f1976f1876e1776e1676e0c76c1476c1876d1776d1676d0e7761576d107751877117771167711577114772137712876812771,
  0x86af086ae0f7761c7701b7701a770197701877017770167701577014770137701277011770107700f7700e7700d7700c7702076f1f76f1e76f1476e,
  0x87711876f0c7770876c0b77708729087230871e0871c0870408701086fb0a777086f2086f0107760c776086e2086d40c774086d2086c6086c3086b1,
  0xe7770d7770a77909779187c5177c4167c4157c4147c4137c4127c4117c4107c40f7c40e7c40d7c40d7c80b7c40a7c4097c4097cc077c4067c4057c4,
  0x117c6107c60f7c60e7c60d7c60d7ca0b7c60a7c6097c6097c9077c6067c61c7c41b7c41a7c4057c60b7780a77814777137771277711777107770f777,
  0xc7751b7781a778197781877817778167781577814778137781277811778107780f7780e7780d7780a7800d77a097800c773157c6147c6137c6127c6,
  0xe77a0d77c1c7791b7791a779197791877917779167791577914779137791277911779107790f7790e7790d7790d77b0b7790b77e0a77e0977e1c778,
  0x1477b1377b1277b1177b0c77b1077b0f77b0e77b0c7791c77a1b77a1a77a1977a1877a1777a1677a1577a1477a1377a1277a1177a0e77c1077a0f77a,
  0xe77e0d77e0c77e0c77f0b77f0a77f0977f1077d0c77d0f77d0e77d0c77a0d77d1077c0f77c0c7781c77b1b77b1a77b1977b1877b1777b1677b1577b,
  0x1877f1777f1677f1577f1477f1377f1277f1177f1077f0f77f0d7810c7810b7810a781097810c77c0e77f0d77f1477e1377e1277e1177e1077e0f77e,
  0x9795107810f781000000e7810e7820d7820d7890b7820a78209782107800f7800e7800b7830d7800c7800a7830b780097831c77f1b77f1a77f1977f,
  0xd7830a7900d78b097901c7821b7821a782197821878217782167821578214782137821278211782117860f7950f7820e7950d7950d7990b7950a795,
  0x237832278321783207831f7831e7831d7831c7831b7831a783197831878317783167831578314783137831278311783117850c7900f7830b7900e783,
  0x1278510783287842778426784257841878424784237842278421784207841f7841e7841d7841c7841b7841a784197842878327783267832578324783,
  0x207871f7871e7871d7871c7871b7871a7871978718786177861678615786147861378610786127861078218785177851678515785147851378510785,
  0x1b7891a789197891978a177891678915789147891378912789117890e78e1178c0f7890e7890d78e1c7881b7881a7881978824787237872278721787,
  0x187871a78a18789307892f7892e7892d7892c7892b7892a789297892878927789267892578924789237892278921789207891f7891e7891d7891c789,
  0x1778b1678b1578b1478b1378b1278b1178b0c78b1878a1178d0f78b0c7830e78b2478a2378a2278a2178a2078a1f78a1e78a1d78a187881c78a1b78a,
  0x1378c1278c107892c78b2b78b2a78b2978b2878b2778b2678b2578b2478b2378b2278b2178b2078b1f78b1e78b1d78b1c78b1b78b1a78b1978b1878b,
  0x1d78d1c78d1078d1b78d1a78d1978d1878d1778d1678d1578d1478d1378d1278d1078b1c78c1078c1b78c1a78c1978c1878c1778c1678c1578c1478c,
  0x1878e1778e1678e1578e1478e1378e0f7921278e0e7921178e1078e0f78e0d7922878d2778d2678d2578d2478d2378d2278d2178d2078d1f78d1e78d,
  0x167901579014791137901279011790107900f7900e7900d790097a31c78f1b78f1a78f1978f1878f1078f1778f1678f1578f1478f1378f1278f1178f,
  0xc7940e7a30d7a30b7940c7a30a794097940b7a3187920a7a3177920c7921679215792147930c78e137920c7891279211792107920c7821879017790,
  0x1379512795117951079f0f79f107950e79f0d79f0d7a00b79f0a79f0979f1979617794167941579414794137941279411794107940f7940e7940d794,
  0x2a796297962879627796267962579624796237961a7972279621796207961f7961e7961d7961c7961b7961a796197971879517795167951579514795,
  0x2d7972c7972b7972a7972979728797277972679725797247971b7981a798237972279721797207971f7971e7971d7971c7971b797197982c7962b796,
  0x237982279821798207981f7981e7981d7981c798187943c7973b7973a797397973879737797367973579734797337973279731797307972f7972e797,
  0x1779916799157991479a13799127991179918798107990f7990e7990e79e0d79e2c7982b7982a7982979828798277982679825798187971879624798,
  0x1279e1179e1079e0f79e0c79e0c7990c7951c79d1b79d1a79d1979d2479c2379c2279c2179c2079c1f79c1e79c1d79c1c79b1b79b1a79b1979b18799,
  0x127a1117a1107a00f7a00e7a01c79c1879d117a71879b0d7a61479f1379f1279f107a70f7a71179f0e7a70d7a70c7a70b7a70a7a7097a71479e1379e,
  0xf7a31c7a21b7a21a7a2197a2187a2177a2167a2157a2147a2137a2127a2117a21c7a11b7a11a7a1197a1187a1177a1167a1157a1147a10e7a6137a1,
  0x1f7a51e7a51d7a51c7a51b7a51a7a5197a5107a4187a5177a5107a2107a1167a5157a5147a4137a4127a4117a4147a3137a3127a3117a3107a3097a8,
  0x127a70e7a90d7a90d7aa0b7a90a7a9097a90c7a60f7a8000000c7a0147a6137a6127a60e7a80d7a8117a60c7a8107a60f7a60b7a80c79f0a7a8207a5,
  0x167a8157a8147a8137a8127a8117a8107a8097b41c7a71b7a7147a51a7a7197a7187a7177a7127a9117a9167a7157a7147a7137a700000107a90f7a9,
  0x137ba0d7b4127ba117ba0c7b40d7b80b7b4187a9177a9117bc0f7ba167a90e7ba0d7ba0d7be0b7ba0a7ba097ba157a9147a9137a90a7b4187a8177a8,
  0x217aa207aa1f7aa1e7aa1d7aa1c7aa1b7aa1a7aa197aa187aa177aa167aa157aa147aa137aa127aa107b4117aa117b10f7aa0e7aa0e7b80f7b40e7b4,
  0x297ac287ac277ac267ac257ac347ab337ab327ab317ab307ab2f7ab2e7ab2d7ab2c7ab2b7ab2a7ab297ab287ab277ab267ab257ab247aa237aa227aa,
  0x287ae277ae267ae257ae247ab3c7ad3b7ad3a7ad397ad387ad377ad367ad357ad347ac337ac327ac317ac307ac2f7ac2e7ac2d7ac2c7ac2b7ac2a7ac,
  0x387af377af367af357af347af337af327af317af307af2f7af000002e7af2d7af2c7af247af247ae2b7af2a7af297af287af247ac277af267af257af,
  0x137b2117b51c7b11b7b11a7b1197b1187b1177b1167b1157b1147b1127b2137b1127b1117b2407b03f7b03e7b03d7b0347ad3c7b03b7b03a7b0397b0,
  0x237b3227b3217b3207b31f7b31e7b3387b01d7b31c7b31b7b31a7b3197b3187b3147b5177b3167b3157b3147b3137b3127b3117b3137b5127b5147b2,
  0x257b4247b4237b4227b4217b4207b41f7b41e7b41d7b41c7b41b7b41a7b40a7b9197b4187b4177b4167b4157b4147b4137b4127b4117b4097b9247b3,
  0x157b61d7b51c7b5147b6117b91b7b51a7b5107b9197b5187b5177b5137b6127b60f7b90e7b9117b60d7b9167b5157b50d7bf287b40b7b9277b4267b4,
  0x1b7b7107b7107b61a7b7197b7107b5187b7177b7107b3167b7157b7147b7137b7127b7117b7187b6107b2107b1177b6167b6107aa207b51f7b51e7b5,
  0x1e7b81d7b81c7b80c7b81b7b81a7b8197b8187b8177b8167b80c7aa157b8147b8137b8127b8117b8107b80f7b80c7a9207b71f7b71e7b71d7b71c7b7,
  0xe7bb0d7bb0d7bd0b7bb147ba107c10f7c10a7bb0e7c10d7c10d7c20b7c10a7c1097c1147b9137b9127b9097bb247b8237b8227b8217b8207b81f7b8,
  0x127bd117bd107bd0f7bd0e7bd107bc087bb087a80c7bd147bc137bc127bc107ba147bb137bb127bb117bb08790107bb147c1137c10f7bb127c1117c1,
  0x167be157be087a3147be137be0c7bb127be117be0879408783107be087800e7c00f7be087780e7be087730d7c0187bd177bd167bd157bd147bd137bd,
  0x107c00f7c00c7bf0c7ba1c7bf1b7bf1a7bf197bf187bf177bf167bf157bf147bf137bf127bf117bf107bf0f7bf0e7bf0c7b9187be177be087b9087b4,
  0x167c10879508782157c1087810877f0877e0877908777087740c7c01c7c01b7c01a7c0197c0187c0177c0167c0157c0147c0137c0127c00c7be117c0,
  0x1c7c21b7c21a7c2197c2187c2177c2167c2157c2147c2137c2127c2087c1117c2107c20c7c2087ba087a90f7c2087a70879f0c7c10e7c2187c1177c1,
  0x347c2337c2327c2317c2307c22f7c22e7c22d7c22c7c22b7c22a7c2297c2287c2277c2267c2257c2247c2237c2227c2217c2217c31f7c21e7c21d7c2,
  0x277c3207c3267c3257c3247c3237c3227c3207c2447c2437c2427c2417c2407c23f7c23e7c23d7c23c7c23b7c23a7c2397c2387c2377c2367c2357c2,
  0x3f7c33e7c33d7c33c7c33b7c33a7c3397c3387c3377c3367c3357c3347c3337c3327c3317c3307c32f7c32e7c32d7c32c7c32b7c32a7c3297c3287c3,
  0x138201282011820108200f8200e8200d8200d8210b8200a8200982009827078200682005820487c3477c3467c3457c3447c3437c3427c3417c3407c3,
  0x118220f8210e8210c8201c8201b8201a820107c80f7c80e7c81c7c61b7c61a7c6197c6187c7177c6167c6197c4198201882017820168201582014820,
  0xd7c90c7c90b7c90a7c9097cd147c8137c8127c8117c80c7c41d8211c8211b8211a8211982118821178211682115821148211382112821118210c821,
  0xc7ca1b7cb1a7cb197cb187cb177cb167cb157cb147ca137ca127ca117ca107ca0f7ca0e7ca0c7c6147c9137c90c7c8127c9117c9107c90f7c90e7c9,
  0x147cc147cb137cc127cc117cc117ce0f7cc0e7cc0d7cc0c7cc0b7cc0a7cc0a7d0097d0247cb237cb227cb217cb207cb1f7cb0a7cd1e7cb1d7cb1c7cb,
  0x147ce137ce107ce127ce107cc187cd177cd167cd157cd147cd137cd127cd117cd117cf0f7cd0e7cd0d7cd0c7cd0b7cd097d2187cc177cc167cc157cc,
  0x97d71c7cf1b7cf1a7cf197cf187cf177cf167cf157cf147cf0b7d20a7d2137cf107cf127cf107cd1c7ce1b7ce1a7ce197ce187ce177ce167ce157ce,
  0x127d2117d2107d20f7d20e7d20d7d20d7d5097d6187d0177d0167d0157d0147d1137d0127d0117d0107d00f7d00e7d00d7d00d7d40b7d00b7d70a7d7,
  0x117d60c7d4107d60f7d60e7d60d7d60d7d80b7d60a7d6097da107d50f7d50c7d20e7d5107d40f7d40e7d40c7d0187d2177d2167d2157d2147d3137d2,
  0xb7da0a7da157d7147d7137d7127d7117d7107d70f7d70e7d70d7d70c7d70c7db0b7db0a7db097db187d6177d6167d6157d60c7d5147d6137d6127d6,
  0x1a7d8197d8187d8177d8167d8157d8147d8137d8127d8117d8107d80f7d80e7d80e7d90d7d91c7d71b7d71a7d7197d7187d7177d7167d70d7da0d7dc,
  0x147da00000137da127da117da107da0f7da0e7da097df187d9177d9167d9157d9147d90c7d9137d9127d9117d9107d90f7d90c7d80c7d61c7d81b7d8,
  0xa7df0e7dd107dc0f7dc0e7dc0c7da107db0f7db0e7db0d7dd0d7db0c7dd0b7dd0a7dd097dd1c7da1b7da1a7da197da187da177da00000167da157da,
  0x1b7dd1a7dd197dd187de177dd167dd157dd147dd137dd127dd117dd107dd0e7e90d7e90f7dd0c7e90b7e90a7e9097e90e7df0c7dc0d7df0c7df0b7df,
  0xa7e50f7e10e7e10d7e10c7e10b7e10a7e1097e51c7df1b7df1a7df197df187e0177df167df157df147df137df127df117df107df0f7df097e11c7dd,
  0x167e3147e3157e3187e2177e2167e2157e2147e2137e2127e2117e2107e20f7e20e7e20d7e20d7e40b7e20a7e2097e2147e1137e1127e1117e1107e1,
  0x127e5097ea187e4177e4167e4157e4147e4137e4127e4117e4107e40f7e40e7e40c7e40c7e2187e3117e5117e70f7e5177e30e7e50d7e50d7e80b7e5,
  0x147e7107e7137e7127e7107e5247e6237e6227e6217e6207e61f7e61e7e61d7e61c7e51b7e51a7e5197e5187e50a7ea177e5167e5157e5147e5137e5,
  0x127e8117e8107e80f7e80e7e800000127ea0c7e51c7e71b7e7117ea107ea0f7ea1a7e70e7ea0d7ea0d7eb0b7ea197e700000187e7177e7167e7157e7,
  0x177e90f7ed167e9157e9147e9137e9127e90e7ed0d7ed117e90d7f10b7ed0a7ed097ed0c7e8107e90f7e9187e8177e81c7e6167e8157e8147e8137e8,
  0x137ed127ed117ed0c7ec0e7f30d7f3107ed0d7f50b7f30a7f3097f3107eb0f7eb0e7eb0c7ea0a7f4187ea177ea167ea157ea147ea137ea097f4187e9,
  0x207ed1f7ed137f4127f41e7ed1d7ed1c7ed117f4107f40f7f41b7ed0e7f40d7f40d7f60b7f41a7ed197ed197f0177ed167ed157ed107f30f7f3147ed,
  0x2a7ef287ef297ef2c7ee2b7ee2a7ee297ee287ee277ee267ee257ee247ee237ee1c7ee227ee217ee207ee1f7ee1e7ee1d7ee247ed237ed227ed217ed,
  0x267f0257f0247f0237f0227f0217f0207f01f7f01e7f01d7f01c7f01b7f01a7f0187ed347ef337ef327ef317ef307ef2f7ef2e7ef2d7ef2c7ef2b7ef,
  0x3c7f03b7f03a7f0397f0387f0377f0367f0357f0347f0337f000000327f0317f0307f02f7f02e7f02d7f02c7f02b7f02a7f0297f0287f0277f0187f0,
  0x1a7f2197f2187f1177f1167f1157f1147f1137f1127f10c7f1117f1107f10f7f10e7f10c7ed447f0437f0427f0417f000000407f03f7f03e7f03d7f0,
  0x137f3127f3117f30e7f70d7f7187f20d7f80b7f70a7f7097f7287f2277f2267f2257f2247f2237f2227f2217f2207f21f7f21e7f21d7f21c7f21b7f2,
  0xc7f5147f5137f5127f5117f50a7f9107f50f7f50e7f50c7f3187f4177f4097f9167f4157f4147f4187f3177f3167f3117f7107f70f7f7157f3147f3,
  0xe7f90d7f90d7fe0b7f91b7f71a7f7197f7187f7177f7167f7157f7147f7137f70c7f6127f7147f6137f6127f6117f6107f60f7f60e7f60c7f4,
  0x108100f810117f8107f80f7f80e7f80d7fc0e8100d810217fa0c8100b8100a81009810147f91f7f7137f9127f91e7f71d7f71c7f7117f9107f90f7f9,
  0x1a7f9197f9187f9177f9167f9157f90980d207f81f7f81e7f81d7f81c7f81b7f81a7f8197f8187f8177f8167f8157f8147f8137f8127f81281011810,
  0x257fb247fb237fb2c7fa2b7fa2a7fa297fa287fa227fb277fa267fa257fa247fa237fa227fa217fb207f91f7f91e7f91d7f91c7f91b7f90e7fc0a80d,
  0x2f7fb2e7fb2d7fb2c7fb207fb2b7fb207fa1580d1480d2a7fb1380d1280d297fb207f7287fb1180d1180f0f80d277fb0e80d0d80d0d8110b80d267fb,
  0x107fc0f7fc0d7fd447fb437fb427fb417fb407fb3f7fb3e7fb3d7fb3c7fb3b7fb3a7fb397fb387fb377fb367fb357fb347fb337fb327fb317fb307fb,
  0x277fc267fc257fc247fc237fc227fc217fc207fc1f7fc1e7fc1d7fc1c7fc1b7fc1a7fc197fc187fc177fc167fc157fc147fc137fc127fc117fc0e7fd,
  0x1b7fd1a7fd197fd187fd177fd167fd157fd147fd137fd127fd0e7ff117fd107fd0d7ff307fc2f7fc2e7fc2d7fc0f7fd2c7fc2b7fc2a7fc297fc287fc,
  0xd800307fd107ff2f7fd2e7fd0f7ff2d7fd2c7fd2b7fd2a7fd297fd287fd277fd267fd257fd247fd237fd227fd217fd207fd1f7fd1e7fd1d7fd1c7fd,
  0x247fe237fe227fe217fe207fe1f7fe1e7fe1d7fe1c7fe1b7fe1a7fe197fe187fe177fe167fe157fe147fe137fe127fe117fe107fe0e8000f7fe0e7fe,
  0x197ff187ff177ff167ff157ff147ff137ff0f8030e803127ff117ff0d803307fe2f7fe2e7fe2d7fe2c7fe2b7fe2a7fe297fe287fe277fe267fe257fe,
  0x118032f7ff2e7ff108032d7ff2c7ff2b7ff2a7ff297ff287ff277ff267ff257ff247ff237ff227ff217ff207ff1f7ff1e7ff1d7ff1c7ff1b7ff1a7ff,
  0x1a8001980018800178001680015800148000f8021380012800118000e802108000f8000d802387ff377ff367ff357ff347ff337ff327ff317ff307ff,
  0x3280031800308002f8002e8002d8002c8002b8002a800298002980127800268002580024800238002280021800208001f8001e8001d8001c8001b800,
  0x398013880137801368013580134801338013280131801308012f801288012e8012d8012c8012b8012a80128800388003780036800358003480033800,
  0x1680315803148030f8050e80513803128030d80518802108061780216802158020f8061480213802128020e80611802108020d8063c8013b8013a801,
  0x2e8032d8032c8032b8032a803298032880327803268032580324803238032280321803208031f8031e8031d8031c8031b8031a803198031980417803,
  0x188041e8041d8041c8041b8041a804188033c803128053b8033a80339803388033780336803358033480333803328033180311805308032f80310805,
  0x368043580434804338043280431804308042f8042e8042d8042c8042b8042a804298042880427804268042580424804238042280421804208041f804,
  0x168070f80c1580714806138060e80c12806118060d80c0f80a0e80a14805138050d80a408043f8043e8043d8043c8043b8043a804398043880437804,
  0x1a809198091180a18809178091080a1680915809208081f8081e8081d8081c8081b8081180c1a80819808188081780816808158081080c1880717807,
  0x1c80b1880b148091b80b1a80b1980b148071880a1780a1680a148081580a0c7ff0c7fc1480a1380a0c7f71280a208091f8091e8091d8091c8091b809,
  0xc7fe1480c1380c0c7f91280c0c7fd2c80b2b80b0c7f82a80b2980b2880b2780b2680b2580b2480b2380b2280b2180b2080b1f80b0c80a1e80b1d80b,
  0x2680c2580c2480c2380c2280c2180c2080c0c80c1f80c0c8061e80c1d80c1c80c1b80c0c8051a80c0c8020c8031980c1880c0c8001780c1680c1580c,
  0x1080d2480e2380e2280e2180e2080e1f80e1e80e1d80e1c80d0a8141b80d1a80d1980d1880d1780d1680d098142c80c2b80c2a80c2980c2880c2780c,
  0x178101681011814108140f814158100e8140d8140c8140b81414810138101c80f1b80f1a80f1980f1880f1780f1680f1580f1480f1080f1380f1280f,
  0x11813108130f813138110e8121281111811108110e8130d8130d8120c8130b8130a813098131c80e0a8150f81109815148140e811138141281418810,
  0xc8160b8160a816098161481318812178121681215812148120c811138121281211812108120f8120c80d18811178111681115811138131481112813,
  0x17815168151581514815138151281511815108150f81514816138160a81a1281611816108160f8160e8150d8150981a0d8170b8150e8160d8160c812,
  0x1381712817118171181a1081a0f81a0e8180e81a0d81a0d81d0b81a0d818108170f8170e8171c8161b8161a816198161881617816168161581618815,
  0x1181b1081c0f81b1b8171a8171981718817178170e81b0d81b168170c81b0b81b0a81b0981b1881a1781a1681a158171581a1481a148171381a1281a,
  0x87d7087d0087cc087c40c8180f81d0c81a1881917819168191581914818138180c8171281811818108180f8180c8150e81d1481b1381b1c8171281b,
  0xe81f0d81f0c81f0b81f0a81f0981f1481d0881b0881608813088101381d087f7087f3087ed087e9087e11281d0c81d1181d1081e087dd087db087c9,
  0x87f9087f41a81f087ea087e51981f1881f1781f087e2087df087da1681f087d6087d2087cd087c6148191581f1481f1381f1281f1181f1081f0f81f,
  0x11832108320f8320e8320d8320c8320b8320a83209832098350783206832058322081f1f81f1e81f1d81f0881f1c81f0881a08815088140880d1b81f,
  0x108330f8330e8330d8330c8332882127821268212582124821238212282121821208211f8211e8210b8330a833098330a83609836148321383212832,
  0x1382212822118232c8212b8212a82129821108350f8350e8350d8350c8350b8360b8350a8350a8370983718834178341683415834138331283311833,
  0x17823168231582314823138231182424822238222282221822208221f8221e8221d8221c8221b8221a82219822188221782212823168221582214822,
  0x118282c8232b8232a823298232882327823268232582324823238232282321823208231f8231e8231d8231c8231b8231a82313824198231882312824,
  0x1a82614826198261882617826168261582618825178251682514825148241c824148281b824138281a82419824128281882417824168241582415825,
  0x1282711827108270f8270e8270d8270c8270b8270a8270c8362882627826268262582624826238262282621826208261f8261e8261d8261c8261b826,
  0x1582a0d8361582b1382a1282a1182a1682f1582f00000158301c8291382f1b8291a8291282f19829148291882917829168291182f158291482713827,
  0x1c82b1b82b1a82b000001982b1982d1782b1682b1482a2482a2382a2282a2182a2082a1f82a1e82a1d82a1c82a1b82a1a82a1982a1882a1782a1682a,
  0x3382b3282b3182b3082b2f82b2e82b2d82b2c82b2b82b2a82b2982b2882b2782b2682b2582b2482b2382b2282b2182b2082b1482b1f82b1e82b1d82b,
  0x2a82d2982d2882d2782d1882d2682d2582d2482d2382d2282d2182d2082d1f82d1e82d1d82d1c82d1b82d1a82d1882b3882c3782c3682c3582c3482b,
  0x108231d82f1c82f108221b82f1a82f1982f1882f1782f108213882e3782e3682e3582e3482d3382d3282d3182d3082d2f82d2e82d2d82d2c82d2b82d,
  0x1f830148301e8301d8301c8301b8301a830198301883017830168301482f2482f2382f2282f2182f2082f3482c1082f1082a108281f82f108241e82f,
  0x368303583034830338303283031830318312f8303482e2e8302d8302c8302b8302a83029830288302783026830258302483023830228302183020830,
  0x3d8313c8313b8313a83139831388313783130831368313583134831338313283130830408303f8303e8303d8303c8303b8303a830398303883037830,
  0x1585b1485b1385b1285b1185b1085b0f85b0e85b0d85b0c85b0b85b0a85b0985b0985e0785b0685b0585b44831438314283141831408313f8313e831,
  0xf85c0e85c0d85c0c85c0b85c0a85c0985c0985d0785c0d8370c8370b83709838108360f8360e8360a83909839148330685c0585c1885b1785b1685b,
  0x14837138371283711837108370b8380a8380c8390f8370b8390e8370b85d0a8630a85d098631885c1785c1685c1585c1485c1385c1285c1185c1085c,
  0xe8390b83d0d8390a83d0983d188381783814834168381583814838138381283811838108380f8380e8380d8380c8380983c18837178371683715837,
  0x1383a1283a1183a1083a0f83a0e83a0d83a0c83a0b83a0a83a0983a0d8410b83c0a83c1883917839168391583914839138391283911839108390f839,
  0x1183e1083d0f83d0b84b1883b0a84b0984b1083c0f83c0e83c0d83c0984a1c83b1b83b1a83b1983b1883a0e83d0d83d1783a0d8401683a1583a1483a,
  0xd8421883f0d84a0c84a0b84a0a84a1783f1683f1583f1483f1383f1283f1183f1c83e1b83e1a83e1983e1883e1783e1683e1583e1483e1383e1283e,
  0xe8410c83c1c8401b8401a84019840188401083f17840168401083e1584014840138401284011840108400e8420f84b0e84b0d84b0f8400c84b0e840,
  0x158420c84014842138421284211842118440f8420c83d1c8411b8411a8410c841198411884117841168411584114841138411284111841118430f841,
  0x1c8451b8451a845198451884517845168451584514844138441284410842148431384312843118491c8421b8421a8420c84219842188421784216842,
  0x2684625847308452f8452e8452d8452c8452b8452a84529845288452784526845258452584623845228451084421845208451f845128491e8451d845,
  0x2d8472c8472b8472a8472984728847278472584834846338463284631846308462f84614845268472e8462d8462c8462b8462a846298462884627846,
  0x438474284741847408473f8473e8473d8473c8473b8473a8473984738847378473684727848358473484733847328473184730847268482f8472e847,
  0x248482484736848358483484833848328483184824846308482f8482e8482d8482c8482b8482a8482984828848248454884747847468474584744847,
  0x26849258492484910843238492284921849208491f8491e8491d8491c8491b8491a84919849188491784916849158491484913849108413884837848,
  0x98501084a0f84a0e84a0984f3884937849368493584934849338493284931849308492f8492e8492d8492c8492b8492a84929849288491084927849,
  0xd84d0c84d0b84d0a84d0984d1884c1784c1684c1584c1484c1384c1284c1184c1084c0f84c0e84c0d84c0c84c0b84c0a84c0984c0b8501084b0a850,
  0x1584e1884d1784d128501684d118501584d1484d1384d1284d1184d108500f8500e8500d8501084d0c8500f84d0e84f0d84f0c84f0b84f0a84f0e84d,
  0x108510f8510e8510d8510c8510b8510a8510b854098510a8540985414850138501484f1384f1284f1184f1484e1084f0f84f098531884e1784e1684e,
  0xd8540f8530d855108520f8520e8520d8520c8520b8520a8520e8530d8530c8530b8530a853098521885117851168511585114851138511285111851,
  0xf8550e855148531385312853118531085309859188520c8541785214854138541285416852118541585214852138521285211852108540f8540e854,
  0xb8590a859128571c8561b8561a856198561c8551b8551a855198551885517855168550b85a0c8550a85a0985a158551485513855128551185511857,
  0x198581c85710857188561085a0f85a0e85a0d85a108590c85a1b8571a8570f85919857188571785710855168571585714857138570e8590d8590c859,
  0x1785a1c8591b8591a85919859188591885817859168591585914859138591285911859088371685a1585a1c8581485a1385a1285a1b8581185a1a858,
  0x1285d1185d1185f0f85d0884a0883c0883808835088320e85d0d85d0d8612085a1f85a1e85a1d85a1c85a1b85a088391a85a08833088271985a1885a,
  0x884d0b85e0884c0a8620a85e098621c85d1b85d0884b0883d0883a0883608859088201a85d088531985d1885d1785d0884f1685d1585d1485d1385d,
  0x1086b0f86b0e86b0d86b0d86c0b86b0a86b0986b0986e0786b0686b0586b0885a1285e1185e1085e0f85e0e85e0d85e08854088520c85e0885108850,
  0x1786c1686c1586c0c86b1485f1385f1285f1885e1785e1685e1585e1485e1385e1486c1386c1286c1186c1086c0f86c0e86c1486b1386b1286b1186b,
  0x1885f1785f1685f1585f1085d0f86e0e86e0c86d0d86e0c86e0b86e0a86e0a870098701486d1386d1286d1186d1086d0c86c0f86d0e86d0d86d1886c,
  0xb862098641c8611b8611a86119861188611786116861158611486113861128610c86111861108610f8610e8610c85d1c8601b8601a860198601085f,
  0x108640f8640e8640d8640b8690a8690c86409869108630f8630e8630d8630c8630b8650a8650b86309865108620f8620e8620d8620c8620b8640a864,
  0xc8660b8660a866098660d8680c86714865138651286511865108650f8650e8650d8650b8670a8670c86509867188600c86914864138641286411864,
  0x885e0d8690885b1c8681b8681a86819868188680e86a178680d86a0c86a168681586814868138681286811868108680f8680b86a0a86a0e8680986a,
  0x88671086e08866088651486a1386a1286a1186a1086a0f86a088690c868088630885d088640885c14869138691286911869108690f8690e86908862,
  0xd8710c871108700f8700e8700d8700c8700b8710b8700a871098711086f0f86f0e86f0d86f0c86f0b86f0a86f0986f098730786f0686f0586f0886a,
  0xd8721887117871168711587114871138711287111871108710c8740f8710b8740e8710a874098741886e1786e1686e1586e1486e1386e1286e1186e,
  0x138871288711887108870f8870e8870d8870c8870b8870a887098870988b07887068870588715872148720c872138721287211872108720f8720e872,
  0xc8890b8890a889098890988e07889068890c8730a87a0b8730a8730987a1887217872168721c8871b8871a887058891888817887168871588714887,
  0xd8770c8770a8750b877098750a877098770b88b1c8891b8891a8890a88b1888a178891688915889148891388912889118891188c0f8890e8890d889,
  0x1587614876138761287611876108760f8760e8760d8761887517875168751587514875138751287511875108750f8750e8750d8750e8770c8750b875,
  0xd8790d87b118780b879108780a87909879148770f8780e87813877128770d8780c8780c8760b878118770a87809878108770f877188761787616876,
  0x9880188791787916879158791187e1087e0f87e0e87e14879138790d87e0d87f128790b87e118790a87e0987e14878108790f8790e8791387812878,
  0x1387c1287c1087c1187c1487b1387b1287b1187b1087b0f87b0e87b0d87d1487a1387a1287a0b8801187a1087a0f87a0e87a0d87a0a8800c87a0b87a,
  0x1a87d0c87b1987d1887d1787d1687d1587d1487d1387d1287d1187d1087d0f87d0c8791c87c1b87c1a87c1987c1887c1787c1687c1587c1487c0e87d,
  0x1087f0f87f0e87f0c87e1887e128811787e1687e11881108810f8810e8811587e1487e0d8810d8821387e0b8811287e0a881098810c87d1c87d1b87d,
  0xc88114881088801388114880138800887a1288011880108800f8800e880088730d8800c8800886f1887f1787f1687f1587f1487f1387f1287f1187f,
  0x188821788216882158821488213882128821388312883118820c88211883108830f8830e883108820f8820d8830d8840c87f0b8830e8820a88309883,
  0x1b883148851a8831388512885198831888311885108850f8850e88517883168830d8850c885158830b885148830a885098851c8821b8821a88219882,
  0x88750c8860b88608874088710a88608870098860886e0886b18884178841688415884148841388412884118840c884108840f8840e8840c8831c883,
  0x1c8861b8861a886198861888617886168861588614886138861288611886108860888608885088830f886088810887e0e8860d886088790887808877,
  0x1c8a01b8a01a8a0198a0188a0178a0168a0158a0148a0138a0128a0118a0108a00f8a00e8a00d8a00c8a00b8a00a8a0098a0098a2078a0068a0058a0,
  0x158a1148a1138a1128a1118a1108a10f8a10e8a10d8a10c8a10b8a10a8a1098a1098a3078a1068a10f88b0e88b0d88b0c88b0988d1988919887058a1,
  0xd88d0d88f0b88d098931088c1488c1388c1288c108891488b1388b1288b0a88d1188b1088b0b8a20a8a21c8a11b8a11a8a1198a1188a1178a1168a1,
  0x1488e1388e1288e1188e1088e0f88e0e88e0d88e0d8900b88e0a8910a88e098911888d1788d1688d1588d1488d1388d1288d1188d1088d0f88d0e88d,
  0x108910f8910c88f0e8910d8910b8940c8920a8940b89109894108900f8900e8900c88e1088f0f88f0e88f0b8930c88d0a8931888e1788e1688e1588e,
  0x108950f8950e8950d8950c8950b8950a89509899108940f8940e8940c8960b8960d8940a8960c89409896108930f8930e8930d8930c8900c89309895,
  0xe8970d8970c8970b8970a89709897148961389612896118960d898108960f8960c8980b8980e8960a8980d89609898148951389512895118950a899,
  0xf8990888b14898138980d89a12898118980c89a0b89a0e8990a89a108980989a0f8980e8981489713897128970d89911897108970c8990f8970b899,
  0xc89b0b89b0e89c0a89b0989b0889b1489a1389a0d89c1289a1189a0d89e0b89c1089a0a89c0f89a0989c08895148991389912899118990e89a10899,
  0x989d1489c08896088971389c08894088911289c0888e1189c088891089c088931489b1389b0888d1289b088871189b1089b0f89b0e89b0f89c0d89b,
  0x1489e1389e1289e1189e1089f0f89e0e89e0c89c1489d1389d1289d1189d1089d0f89d0889c0e89d0889a0d89d0c89d0b89d088980889d0a89d08899,
  0x41df04167040e004065040000000000000198a2188a2178a2168a2158a2148a2138a2128a2118a2108a20f8a20e8a20d8a20a8a60c89e098a60d8a4,
  0x1c8a21b8a21a8a2048a0048870486f0485b04832047c404773046ad0461a04608045b704556044670443a043600434d0433e042e9042c10427004241,
  0x47c604774046ae0461804609045b00455804466044350435f0434e0433f042eb042c20426f04240041e104168040e104060040020a8a70a8a3098a7,
  0xc8a21c8a31b8a31a8a3198a3188a3178a3168a3158a3148a3138a3128a3118a3108a30f8a30e8a30d8a30c8a30b8a3048a1048890486b0485c04820,
  0xc8a4098a8148a6138a6128a6118a6108a60f8a60e8a60d8a60b8a90a8a900000098a90c8a60b8a6108a50c8a50f8a50e8a50d8a5108a40f8a40e8a4,
  0x138a8128a8118a8108a80f8a80e8a80d8a80c8ad0b8ad0a8ad0d8ab098ad148a7138a7128a7118a7108a70f8a70e8a70d8a70c8a70b8a70b8a80a8a8,
  0x168a9158a9148a9138a9128a9118a9108a90f8a90e8a90d8a90c8ac0b8ac0a8ac0d8aa098ac1c8a81b8a81a8a8198a8188a8178a8168a8158a8148a8,
  0x2e8a92d8a92c8a92b8a92a8a9298a9288a9278a9268a9258a9248a9238a9228a9218a9208a91f8a91e8a91d8a91c8a91b8a91a8a9198a9188a9178a9,
  0xc8a8148aa138aa128aa118aa108aa0f8aa0c8aa0e8aa0c8a93c8a93b8a93a8a9398a9388a9378a9368a9358a9348a9338a9328a9318a9308a92f8a9,
  0xe8ad0d8af0c8af0b8af0a8af0d8ad098af108ac0f8ac0c8ab0e8ac0d8ae0c8ae0b8ae0a8ae0d8ac098ae148ab138ab128ab118ab108ab0f8ab0e8ab,
  0x148af138af128af118af108af0e8b00f8af0d8b00c8b00b8b00a8b000000098b00e8af148ae138ae128ae118ae108ae0f8ae0e8ae098b1108ad0f8ad,
  0x1a8b0198b0188b0178b0168b0158b00f8b20e8b2148b00d8b20c8b20b8b20a8b2138b0098b20e8b10d8b10c8b10b8b1128b00a8b1118b0108b00f8b0,
  0x138b2128b20f8b40e8b4118b20d8b40c8b40b8b40a8b4108b2098b4148b1138b1128b1118b1108b10f8b1088ae208b01f8b01e8b01d8b01c8b01b8b0,
  0x148b4138b4088b1128b4118b4148b3138b3128b3118b3108b30f8b3088ac088a9088a6088a20e8b3088a00d8b30c8b30b8b3108b40a8b3098b3148b2,
  0x108b6088b50c8b60f8b60e8b6088b40c8b5108b50f8b5088b20e8b50d8b50d8b60b8b50a8b5088b0088af098b5088ad088a8088a7088a3088b3088a1,
  0x148b6138b6128b6118b6]

/-- For every node a row of the names (12 bits) and its depth in bytes (8 bits). -/
def certTbl : Table := ⟨20, 33148, certData⟩

def endData : Nat := pack 512 [
  0x13f01320125011d00ff010300e900ee00d200ce00b300bb00c200a800ae0083009e0096009a0089008d0065006e00570052009f004b003e0068003d0066003c,
  0x25302450231022d0221021d0215020701fd020501f601f901f201ec01e601de01d201ca021201c101ba019601900183017f018201760145014f017001680156,
  0x3d203b7038503890379037d036e03730366036a0361034603340330031d030c02fb030002da02fa02f602ef02e202ad02a5029c0298029502e3027e02760267,
  0x5d405c705b205a905a005890584057f05780557054505390523051f050604f104de04da04d104bf04af04a2049a048d047f046b0462043c04320427041203f1,
  0x7f707db07ce07ca07c807af07a707a4078b078a077e0775077007620759074307330723070206e906bc06a7068d06850670066706360629061405ff05ee05dd,
  0x91008eb08ce08c808c208bd08b908b408ac089708a6088f087908660862085d08570851084b084608410847085208350830082c08250821081d081508110809,
  0x9fa09f609da09cb09ca09bd099009b609a509a009960989097d095c096e0960096409430939091f0913090e090d090908fd08f608f108ed08ea08e208dc08d6,
  0xbe50bd00bb20bb60ba50b980b8a0b820b760b610b540b430b470b320b360b250b180b030af10ad80acd0a980ac20a790a6f0a670a570a430ac30a7a0a2d0a12,
  0xe080dab0d960d8a0d750d710d6e0d590d480d300d2b0d230d080cf70ce50cd40cbf0c8f0c800d6f0c720c6e0c6b0c5b0c490c3b0c320c290c200c0b0be80bec,
  0x105110410fc00fc90fb70ea50fb40fb10f980f8b0f820f790f480f3b0f2e0f100f040efa0eeb0ed20eca0ec40ec00eb20ead0ea70e9c0e8b0e830e770e660e51,
  0x11d111d511ca11b411a8119611751171115e115a114f1142113a112e11151130111610fe10fa10e910e010ce10c810a4109f109b109610921084107b10651058,
  0x13b013a713c713a2139e138b13701368138c134913461341133d132b1315130612ef12e912dd12d312ca12bd12b512a41288126b125d12501233122312191204,
  0x15d415ca15b215991595158d157f155f15631555155115451530150114fd14f814e714d314c114bd14a81493146e146114221417140213f513f113ec13dc13be,
  0x192f191b18fe18f118d418f218a2187518501832182617fd17d417ab1778176d1744171f170216f516a81677165a164a163616211614160c1637162215e415d9,
  0x1bd41bba1b8a1b7e1b7c1b731b5c1b451b411b381b351b251b031af51af11ad01ae41adf1acf1ab51aa41a8b1a821a751a5c1a231a1619fd19d8199b19861959,
  0x1d2f1d0d1d301cf61ce91ce21ce61cca1cce1ce71cb91cb51cac1c971c931c881c7e1c711c611c5a1c571c5c1c461c3d1c421c341c2c1c171c011bed1bf11bd0,
  0x1f201f0f1ef21ed91ec71ebd1eb91ea71e8e1e7f1e721e6a1e671e5e1e561e421e231d7f1e1b1e191e111e141e021dc11dbe1d841dbf1d621d561d451d371d33,
  0x20ec20c72091205820532034204a203d204120192026200b200a1ffe20021ff61fec1ffc1fea1fdc1fcc1fc11fc01fb41fb01f971f8d1f851f641f561f3c1f3e,
  0x23082309230c230422ff230a22fa22e522c722a522a1229d228c2276226e225f22542247223a222d221c21df219e218b2188217f2172216521502134212b2124,
  0x245724492452244524362431242e241c240f23f923e223ca23c723c323bf23ab2396237823752369235c2354234b2346233d2333232f2330232a2321231c2313,
  0x255a255125452541253d253925352523250c250524fd24fe24f424f024e924ce24ca24ba24c124be24b424aa24a624a2249e24902485248124672463245f245b,
  0x2764275127442733271e270526f826ec26ce26bd269926812677278226be266c2683266826652661265e258626552651263c2613260225e525bf25af2572251a,
  0x29c82994297e2978297029472913290228f828dd28c62891288c28852875286028542843282d281c2811280d280827fb27f727eb27d927c527b427a3277f276c,
  0x2b4d2b512b332b3a2b222b1e2b192b0b2b102b002af32ae82ada2ad52acd2ad12ac12ac52aab2aa22aa62a7b2a812a742a632a572a3f2a142a0329e529d329cf,
  0x2d302d202d0e2cec2cdb2cc52ca52d0f2cc62c962c852c772c6a2c992c542c402c302c282c202c0f2bfd2be02bd62bc42c412bad2b982b8c2b822b6f2b662b83,
  0x2ebf2eab2e9b2e9f2e8a2e962e7b2e792e5e2e272e2b2e3c2e382e332e2f2e2a2e2c2df82dfe2df32dfc2de72dd62dcb2dc32dba2db22da22d832d7e2d7a2d65,
  0x2fa5305c30513048303c302c301f301230052ffb2fe62fdb2fd22fce2fca2fb42f932f8e2ec92f6d2f5c2f4d2f3c2f2a2f1c2f102f042ef62ee52edb2ed12ecd,
  0x31f631e431d231ce31c731b731b831a1319931923187317c3174316c315f31933156314a313c31413138310931103106310030f930f230e130d030bf30a53085,
  0x3440341333dd33c133b033863379335c337a33373706370232ed32e632d132b832b332a6329b32963293328b32823271325d324b323432303222321a32153203,
  0x372937253711370c37083705370136f336dc36cf36b636903660364b364c362135f835dd35c635bd35a4357a35593555352c350334da34b134a8347a34663459,
  0x395038ed390d390438f738f238ee38d638b638c838c438c138b238a13892387d3853384738363829380c37e737ae379d37883779375b3750374c374837433734,
  0x3c143bff3bd23ba93b803b573b3e3b153aec3ac33a963a713a333a243a073a163a0439f739f339ef39eb39d439d939be39a3399b398a397e396f394f392b3970,
  0x3db73da33d9e3d943d8e3d893d803d643d5e3d593d503d4a3d463d373d353d313d243cfb3ce73ce63ce13cdb3ccc3cc93ca03c6f3c623c513c3c3c2e3c2a3c1e,
  0x3f2c3f243f063f073eda3ec63ed73eca30a1308130993eb83eb03e7c3e6a3e5d3e4f3e4a3e413e393e253e193e023dda3dc93d6e3e913e1b3d883dd13d7e3dc6,
  0x40f840ed40e540d440c840bd409f40964091406e406a40664062404e40554046403a402a401e40224012400a40063ffd3fe03fb63f823f743f623f5e3f553f3f,
  0x4273426d426a42634256424a42394228421a420441f741f341e141e541d841d441c741bc41ac41a4419b419541914189416a3f1b4149413a410d40f3410c40ea,
  0x44ad44a044994496448944874483446c4466445a44554453444a4441443d4431441c43fb43af43a54395438743524339431042c342b742af42aa429e44324288,
  0x45624623461d4617460f4609460445fa45f645f245ee45da45d645d345aa4581456345ef4537453345214514450b44ef44e644e244df44ce44de44c944bc44b1,
  0x490c48f748f848b648b148ac48a3489f48a0488b487648434830480647f647d947b448314782476c47584746472946e446cf46974a094cab46524691468a463c,
  0x4c974c474c324c174c044bdb4c054bad4b984b834b6e4b554b404b0f4afa4afb4abc4a834a5a4a444a214a1c4a174a0f4a0849e74994498149574947492a4982,
  0x4e464e424e3e4e354e134dd64dd14dcb4dc74ddb4dc64dc34db84d834d564d524d4e4d024d3e4d364d324d2d4d204d1d4d064cfd4ceb4cda4cd84caa4c964c71,
  0x4f144f7b4f7e4f1b4f784f704f5b4f534f234efe4f104ee84eef4df74ee64ee24ed84eca4ec54ec14ebd4eb44eaa4ea64e9e4e914e894e834e804e764e604e53,
  0x5132511f5117511b510a50fd50e150e54175417950c15094508750824fb8507950725062504d503e503a5036502a501250004ffb4ff54fe14fd14fc14f8a4f7c,
  0x52b652a152945282527052645260525352425235521a5214521051fd51f651fa51e551e951cf51c051bc51b751a6519251845173516951615150513b51275123,
  0x542a5412541653fe540453ed53a1538853e853e453d053ca53c053b553b953af53a8539b538e530653cb52fd5382537553685353530452ee52e352dd52d052cb,
  0x55d755cd55bd55b855ab559e5567555d5551553e553a553550f7555a55245534551854e954cf54ab54915463546a5455545a5484547c546c54435448543c5442,
  0x5756575a574d5744573b571e564656e056db56c456cd56c05692569f569a568e5681567d56dc5661565956555640563d563e55e85614560755f655f255e955e0,
  0x5937592f5911590c58fc58e858cd58b658b558a2589c588d588858805875586d5860584e5832582a581757ee581857bf57a0586e5781577b5774572b594158b8,
  0x5ae95ae05ad85abf5ab15a9359cf59c25a605a665a595a5d5a535a4b5a3e5a315a0759fa59ee59d859bb599a55955579598e59665961595d595b59575944593f,
  0x5c345c265c1e5c195c085bfa5be75bd65bc65bb55bac5b9b5b805b7c5b745b6c5b5f5b5d5b525b455b3d5b395b315b2d5b5e5b1b5b6d5b015b055afa5af25aee,
  0x5def5de75de45dd95dc85db95d845d5a5d295d265cfe5d225d1a5d105d0c5cf35ce75d275cda5cd45ccf5cc35ca95c9e5c995c965c8e5c855c745c605c4c5c38,
  0x612c6117611860ed60c460ab609460896060603360125fe95fe05fb25f9e5f915f785f4b5f145ef85ee85ec35ee95e905ec45e6b5e225e1e5e185e145e085e02,
  0x6373637063676357634e632b631262f262f062eb62c262a662986294628d62816268625f624d62486238621762156207620061d761ce61c061a8619b6182615d,
  0x652c650c650064fc64ef64e664d464c864b864b464b264a564976486652d65336461642b5a9b641f6416640a63e963d763ca63bd63b563a3639e639a6391637d,
  0x6715671366f666cd66ac6693666d66366632662a6616660365f265dd65da65d065c565c165ac659b658c65926588657f657b656d654c65486545653664e76531,
  0x6892688d6879686f6869685f6850684c68486843683968316818680b67da67ad67996787677c676d676a6763675f675b67576753677d6742673e673a6723672c,
  0x6a376a226a266a1d6a126a0d6a0869f569e069c769b16999696769f66a0f69416939692b692669226918690468ff68f168ed68e968e068dc68ca68c668a8689c,
  0x6bf86bda6ca56bb76bb36ba96ba06b9b6b8e6b786b746b6c6b796b4d6b3c6b306b2c6b226af26ae76ae06ab16b316b4e6adb6ad36ac66a756a5b6a746a716a61,
  0x6d876d746d646d5a6d4d6d346d1f6d126cf76d0b6cfe6d9a6cf16d996ce66d986ce26da26da06cd76cc96cc56cc16cac6ca46c976c866c6a6c626c4f6c266c50,
  0x6f036eed6ee06eda6ed76ec66eb56ea06e756e486e18647a64556e136e176e3c6e2b6e226e1d6dfd6dfa6df56dec6de06ddb6dc46dc06db86daa6d9e6d966d92,
  0x70d570c970c070bc70b470ac70b070a2708e70697054708f7029702f701d7021701470076ffa6fe16fd46fb26fa46f7f6f7b6f6f6f666f5d6f4c6f2b6f166f0c,
  0x72a37293727d726e726a725b7251724d72347220721a720371e871d071cd71c071b7719f719a719271827172715071417137711c7110710170fd70f670ea70dd,
  0x747f746c747074557451744874367429741873ff73ed73e973e173e573d373d773c673b773aa739b73897377736f7362734173456e6b6e7b732872ff72c172b4,
  0x76e876bb76967671764c761c760f7600762a75c775be75b575af759d758d75807551754475337514750c7507750074ee74df74ca74c274b574a8749c748c747b,
  0x78fa78c378d178a678ab789878b878b478a9788078787834785b785a784e783078237816780e780577e177c877bd77af77a1779c7794779177687737772a7715,
  0x7afe7af27ae67ae07adb7ad77ac17ab27aa37a7a793079267a75790a7a5e7a497a1b7a057a0179e479e079be79a579727999798d79787973796679497934734b,
  0x7d0f7cf07cc17a907a727ca37c967c867c7e7c647c607c447c4d7c477c277c147c127c0a7c067bea7bd97bd67bd27ba97b947b6f7b5d7b3f7b3b7b377b267b15,
  0x7e977e8b7e797e697e5b7e537e467e357e287e1a7e0e7dad7de07ddb7db67d9d7d947da77d017cf87ce37d837d777d6c7d527d577d517d437d377d2e7d257d14,
  0x800b800f80077ff67fea7fd97fcd7fc57fb87fa97f9c7f8f7f867f797f7f7f757f717f6b7f5a7f4a7f467df37df77dd47dd87f077ed67ee57ed87ec37ea67ea3,
  0x817b8170815f815a8148813c813581178109810180f880ee80e680dd80a88093808580778072806e803f7f3e7f1f]

/-- For every name its node. -/
def endTbl : Table := ⟨16, 2231, endData⟩

end Verif.Proof.NamedRef
